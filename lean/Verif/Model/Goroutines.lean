import Verif.Model.Combine
/-!
# util.go:118-172: the goroutines of `combineConfigs` and `performIncludes`

Every call of `performIncludes` starts a goroutine that sends the expanded directives over an unbuffered channel and closes it when it returns
(`defer close(c)`).  A goroutine reads from at most one other goroutine at a time (the one it started last), so the goroutines that are still read from
form a chain: `combineConfigs`, the goroutine it reads from, the one this one reads from, and so on.  A reader that returns at an error leaves the rest of its
chain behind; these goroutines go on until they have to send something.

The goroutines share nothing that is written to: a directive is copied (util.go:137) before it is changed.  A panic in any goroutine ends the program.
-/
namespace Verif

/-- util.go:16-19 `included`: what is sent over the channels. -/
inductive Item where
  | dir (d : Directive)
  | err (e : GoErr)

/-- Where a goroutine is, with its local variables. -/
inductive GoSt where
  /-- util.go:136: before the next directive of the block -/
  | next (ds : List Directive)
  /-- util.go:140: in the loop that reads the expanded block of `d`; `acc` is `nblock` -/
  | block (d : Directive) (acc ds : List Directive)
  /-- util.go:149: with the block of `d` expanded -/
  | emit (d : Directive) (ds : List Directive)
  /-- util.go:153: before the next index of `d.Includes` -/
  | incl (d : Directive) (idxs : List Int) (ds : List Directive)
  /-- util.go:165: in the loop that forwards the directives of an included config -/
  | copy (d : Directive) (idxs : List Int) (ds : List Directive)
  /-- waiting for the reader in `c <- x`, to go on with `k` -/
  | send (x : Item) (k : GoSt)
  /-- returned; the channel is closed -/
  | ret

/-- A goroutine: `fromfile` and its state. -/
structure Gor where
  file : Str
  st : GoSt

/-- The goroutine has started another one and will still read from it. -/
def GoSt.reads : GoSt → Bool
  | .block .. => true
  | .copy .. => true
  | .send _ k => k.reads
  | _ => false

/-- One step of the first goroutine of a chain, possibly together with the second one, from which it reads; the last argument are the chains that
are left behind. -/
inductive HeadAct (cs : List Config) : List Gor → List Gor → List (List Gor) → Prop where
  /-- the block is finished: util.go:135, 170 -/
  | done (f) : HeadAct cs [⟨f, .next []⟩] [⟨f, .ret⟩] []
  /-- a directive without block: util.go:138 -/
  | plain (f d ds) (h : d.block = none) : HeadAct cs [⟨f, .next (d :: ds)⟩] [⟨f, .emit d ds⟩] []
  /-- a directive with a block starts a goroutine: util.go:139-140 -/
  | spawn (f d ds b) (h : d.block = some b) : HeadAct cs [⟨f, .next (d :: ds)⟩] [⟨f, .block d [] ds⟩, ⟨f, .next b⟩] []
  /-- util.go:145 -/
  | recv (f d acc ds f' x k rest) :
      HeadAct cs (⟨f, .block d acc ds⟩ :: ⟨f', .send (.dir x) k⟩ :: rest) (⟨f, .block d (acc ++ [x]) ds⟩ :: ⟨f', k⟩ :: rest) []
  /-- util.go:141-144 -/
  | recvErr (f d acc ds f' e k rest) :
      HeadAct cs (⟨f, .block d acc ds⟩ :: ⟨f', .send (.err e) k⟩ :: rest) [⟨f, .send (.err e) .ret⟩] [⟨f', k⟩ :: rest]
  /-- util.go:147 -/
  | closed (f d acc ds f') : HeadAct cs [⟨f, .block d acc ds⟩, ⟨f', .ret⟩] [⟨f, .emit { d with block := some acc } ds⟩] []
  /-- util.go:149-152 -/
  | keep (f d ds) (h : d.isInclude = false) : HeadAct cs [⟨f, .emit d ds⟩] [⟨f, .send (.dir d) (.next ds)⟩] []
  /-- util.go:149, 153 -/
  | incl (f d ds) (h : d.isInclude = true) : HeadAct cs [⟨f, .emit d ds⟩] [⟨f, .incl d (d.includes.getD []) ds⟩] []
  /-- no further index -/
  | inclDone (f d ds) : HeadAct cs [⟨f, .incl d [] ds⟩] [⟨f, .next ds⟩] []
  /-- util.go:154-163 -/
  | inclBad (f d) (idx : Int) (idxs ds) (h : idx ≥ cs.length) :
      HeadAct cs [⟨f, .incl d (idx :: idxs) ds⟩] [⟨f, .send (.err (indexError f d idx)) .ret⟩] []
  /-- util.go:165 starts a goroutine -/
  | inclOpen (f d) (i : Nat) (idxs ds) (cfg : Config) (h : cs[i]? = some cfg) :
      HeadAct cs [⟨f, .incl d ((i : Int) :: idxs) ds⟩] [⟨f, .copy d idxs ds⟩, ⟨cfg.file, .next cfg.parsed⟩] []
  /-- util.go:165-167: also an error is only forwarded -/
  | forward (f d idxs ds f' x k rest) :
      HeadAct cs (⟨f, .copy d idxs ds⟩ :: ⟨f', .send x k⟩ :: rest) (⟨f, .send x (.copy d idxs ds)⟩ :: ⟨f', k⟩ :: rest) []
  /-- the included config is finished -/
  | inclNext (f d idxs ds f') : HeadAct cs [⟨f, .copy d idxs ds⟩, ⟨f', .ret⟩] [⟨f, .incl d idxs ds⟩] []

/-- One step of a chain of goroutines, each reading from the next one. -/
inductive Act (cs : List Config) : List Gor → List Gor → List (List Gor) → Prop where
  | head {ch ch' o} (h : HeadAct cs ch ch' o) : Act cs ch ch' o
  /-- a goroutine further down the chain moves -/
  | deeper (g rest rest' o) (hg : g.st.reads = true) (h : Act cs rest rest' o) : Act cs (g :: rest) (g :: rest') o

/-- `old.Config[idx]` (util.go:165) panics. -/
inductive Crashes : List Gor → Prop where
  | here (f d idx idxs ds) (h : idx < 0) : Crashes [⟨f, .incl d (idx :: idxs) ds⟩]
  | deeper (g rest) (hg : g.st.reads = true) (h : Crashes rest) : Crashes (g :: rest)

/-- Where `combineConfigs` is: reading (`acc` is `combined.Parsed`), or it has returned, or the program has crashed. -/
inductive MainSt where
  | reading (acc : List Directive)
  | returned (r : Except GoErr (List Directive))
  | crashed

/-- `combineConfigs`, the chain it reads from, and the chains that were left behind. -/
structure CombSt where
  main : MainSt
  chain : List Gor
  orphans : List (List Gor)

/-- util.go:118 with the first config. -/
def CombSt.init (c0 : Config) : CombSt := { main := .reading [], chain := [⟨c0.file, .next c0.parsed⟩], orphans := [] }

/-- One step, chosen by the scheduler. -/
inductive CombStep (cs : List Config) : CombSt → CombSt → Prop where
  /-- util.go:122 -/
  | recv (acc f x k rest os) :
      CombStep cs ⟨.reading acc, ⟨f, .send (.dir x) k⟩ :: rest, os⟩ ⟨.reading (acc ++ [x]), ⟨f, k⟩ :: rest, os⟩
  /-- util.go:119-121 -/
  | recvErr (acc f e k rest os) :
      CombStep cs ⟨.reading acc, ⟨f, .send (.err e) k⟩ :: rest, os⟩ ⟨.returned (.error e), [], os ++ [⟨f, k⟩ :: rest]⟩
  /-- util.go:118, 125 -/
  | closed (acc f os) : CombStep cs ⟨.reading acc, [⟨f, .ret⟩], os⟩ ⟨.returned (.ok acc), [], os⟩
  /-- a goroutine of the chain moves -/
  | act (acc ch ch' o os) (h : Act cs ch ch' o) : CombStep cs ⟨.reading acc, ch, os⟩ ⟨.reading acc, ch', os ++ o⟩
  /-- a goroutine that was left behind moves -/
  | orphan (m chain os1 ch ch' o os2) (hm : m ≠ .crashed) (h : Act cs ch ch' o) :
      CombStep cs ⟨m, chain, os1 ++ ch :: os2⟩ ⟨m, chain, os1 ++ ch' :: os2 ++ o⟩
  /-- a goroutine panics -/
  | crash (m chain os) (hm : m ≠ .crashed) (h : Crashes chain ∨ ∃ ch ∈ os, Crashes ch) : CombStep cs ⟨m, chain, os⟩ ⟨.crashed, chain, os⟩

/-- `n` steps, chosen by the scheduler. -/
inductive CombRun (cs : List Config) : Nat → CombSt → CombSt → Prop where
  | refl (s) : CombRun cs 0 s s
  | tail {n a b c} : CombRun cs n a b → CombStep cs b c → CombRun cs (n + 1) a c

/-- util.go:125-129: the payload that is returned. -/
def combinedPayload (old : Payload) (c0 : Config) (parsed : List Directive) : Payload :=
  { status := if old.status == [] then c!"ok" else old.status
    errors := old.errors
    config := [{
      file := c0.file
      status := if old.config.any (fun c => c.status == c!"failed") then c!"failed" else c!"ok"
      errors := old.config.flatMap (·.errors)
      parsed := parsed }] }

end Verif
