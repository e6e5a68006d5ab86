import Verif.Model.Goroutines
import Verif.Proofs.Combine
/-!
# What a chain of goroutines will still send

`outC n ch` computes, with fuel `n` for nested includes, what the first goroutine of the chain will send from now on, how this ends, and how many steps that takes.
-/
namespace Verif
open Spec

/-- How the sending ends. -/
inductive Fin where
  | closed
  | err (e : GoErr)
  | panic
  | fuel
deriving DecidableEq

/-- The directives that will be sent, the end, the number of steps. -/
structure Out where
  items : List Directive
  fin : Fin
  cost : Nat

theorem Out.ext' {a b : Out} (h1 : a.items = b.items) (h2 : a.fin = b.fin) (h3 : a.cost = b.cost) : a = b := by
  cases a; cases b; simp_all

/-- `k` steps more. -/
def Out.tick (k : Nat) (a : Out) : Out := { a with cost := a.cost + k }

/-- First `a`, then `b`. -/
def Out.andThen (a b : Out) : Out :=
  match a.fin with
  | .closed => { items := a.items ++ b.items, fin := b.fin, cost := a.cost + b.cost }
  | _ => a

/-- What a goroutine sends that forwards `a`. -/
def Out.fwd (a : Out) : Out :=
  { a with cost := a.cost + a.items.length + (match a.fin with | .closed => 1 | .err _ => 1 | _ => 0) }

/-- What a goroutine sends that collects `a` and then goes on with `k`. -/
def Out.collect (a : Out) (k : List Directive → Out) : Out :=
  match a.fin with
  | .closed => (k a.items).tick (a.cost + 1)
  | .err e => { items := [], fin := .err e, cost := a.cost + 1 }
  | .panic => { items := [], fin := .panic, cost := a.cost }
  | .fuel => { items := [], fin := .fuel, cost := a.cost }

/-- The result a reader gets. -/
def Out.res (a : Out) : Res (List Directive) :=
  match a.fin with
  | .closed => .ok a.items
  | .err e => .err e
  | .panic => .panic
  | .fuel => .fuel

/-- util.go:153-168. -/
def outIncl (cs : List Config) (inner : Str → List Directive → Out) (f : Str) (d : Directive) : List Int → Out
  | [] => { items := [], fin := .closed, cost := 1 }
  | idx :: idxs =>
    if idx ≥ cs.length then { items := [], fin := .err (indexError f d idx), cost := 2 }
    else if idx < 0 then { items := [], fin := .panic, cost := 0 }
    else match cs[idx.toNat]? with
      | none => { items := [], fin := .panic, cost := 0 }
      | some cfg => (((inner cfg.file cfg.parsed).fwd).andThen (outIncl cs inner f d idxs)).tick 1

/-- util.go:149-168. -/
def outEmit (cs : List Config) (inner : Str → List Directive → Out) (f : Str) (d : Directive) : Out :=
  if !d.isInclude then { items := [d], fin := .closed, cost := 2 }
  else (outIncl cs inner f d (d.includes.getD [])).tick 1

mutual
/-- util.go:137-168. -/
def outDir (cs : List Config) (inner : Str → List Directive → Out) (f : Str) : Directive → Out
  | ⟨dd, dl, dargs, df, dincl, dblock, dcomm, dmap⟩ =>
    outOpt cs inner f dblock fun nb => outEmit cs inner f ⟨dd, dl, dargs, df, dincl, nb, dcomm, dmap⟩
/-- util.go:138-148. -/
def outOpt (cs : List Config) (inner : Str → List Directive → Out) (f : Str) : Option (List Directive) →
    (Option (List Directive) → Out) → Out
  | none, k => (k none).tick 1
  | some b, k => ((outList cs inner f b).collect fun xs => k (some xs)).tick 1
/-- util.go:136-169. -/
def outList (cs : List Config) (inner : Str → List Directive → Out) (f : Str) : List Directive → Out
  | [] => { items := [], fin := .closed, cost := 1 }
  | d :: ds => (outDir cs inner f d).andThen (outList cs inner f ds)
end

/-- util.go:132-172, with fuel for nested includes. -/
def outInc (cs : List Config) : Nat → Str → List Directive → Out
  | 0, _, _ => { items := [], fin := .fuel, cost := 0 }
  | n + 1, f, ds => outList cs (outInc cs n) f ds

/-- What a goroutine sends from a state, given what the goroutine it reads from sends. -/
def outG (cs : List Config) (n : Nat) (f : Str) (child : Out) : GoSt → Out
  | .next ds => outList cs (outInc cs n) f ds
  | .block d acc ds =>
    (child.collect fun xs => outEmit cs (outInc cs n) f { d with block := some (acc ++ xs) }).andThen (outList cs (outInc cs n) f ds)
  | .emit d ds => (outEmit cs (outInc cs n) f d).andThen (outList cs (outInc cs n) f ds)
  | .incl d idxs ds => (outIncl cs (outInc cs n) f d idxs).andThen (outList cs (outInc cs n) f ds)
  | .copy d idxs ds => (child.fwd.andThen (outIncl cs (outInc cs n) f d idxs)).andThen (outList cs (outInc cs n) f ds)
  | .send (.dir x) k => let o := outG cs n f child k; { items := x :: o.items, fin := o.fin, cost := o.cost + 1 }
  | .send (.err e) _ => { items := [], fin := .err e, cost := 1 }
  | .ret => { items := [], fin := .closed, cost := 0 }

/-- What the first goroutine of a chain sends. -/
def outC (cs : List Config) (n : Nat) : List Gor → Out
  | [] => { items := [], fin := .closed, cost := 0 }
  | g :: rest => outG cs n g.file (outC cs n rest) g.st

/-! ## The sequential model -/

theorem Out.res_andThen (a b : Out) : (a.andThen b).res = a.res.bind fun r => b.res.bind fun r' => .ok (r ++ r') := by
  obtain ⟨ai, af, ac⟩ := a
  obtain ⟨bi, bf, bc⟩ := b
  cases af <;> simp [andThen, res, Res.bind]
  cases bf <;> rfl

theorem Out.res_tick (k : Nat) (a : Out) : (a.tick k).res = a.res := rfl

theorem Out.res_fwd (a : Out) : a.fwd.res = a.res := rfl

theorem Out.res_collect (a : Out) (k : List Directive → Out) : (a.collect k).res = a.res.bind fun xs => (k xs).res := by
  obtain ⟨ai, af, ac⟩ := a
  cases af <;> simp [collect, res, Res.bind, tick]

section
variable {cs : List Config} {inner : Str → List Directive → Out}

theorem outIncl_res (f : Str) (d : Directive) (idxs : List Int) :
    (outIncl cs inner f d idxs).res = expandIncludes cs (fun f ds => (inner f ds).res) f d idxs := by
  induction idxs with
  | nil => rfl
  | cons idx idxs ih =>
    rw [outIncl, expandIncludes]
    split
    · rfl
    · split
      · rfl
      · cases cs[idx.toNat]? with
        | none => rfl
        | some cfg => simp only []; rw [Out.res_tick, Out.res_andThen, Out.res_fwd, ih]

theorem outEmit_res (f : Str) (d : Directive) : (outEmit cs inner f d).res =
    if !d.isInclude then .ok [d] else expandIncludes cs (fun f ds => (inner f ds).res) f d (d.includes.getD []) := by
  unfold outEmit
  split
  · rfl
  · rw [Out.res_tick, outIncl_res]

theorem outDir_eq (f : Str) (d : Directive) : outDir cs inner f d = outOpt cs inner f d.block fun nb => outEmit cs inner f { d with block := nb } := by
  obtain ⟨dd, dl, dargs, df, dincl, dblock, dcomm, dmap⟩ := d
  rw [outDir]

theorem outList_res (f : Str) (ds : List Directive) : (outList cs inner f ds).res = expandList cs (fun f ds => (inner f ds).res) f ds := by
  induction ds using listInd with
  | h0 => rw [outList, expandList]; rfl
  | h1 d ds ihb ih =>
    rw [outList, expandList_cons, Out.res_andThen, ih, outDir_eq, expandDir_eq]
    congr 1
    cases hb : d.block with
    | none => rw [outOpt, expandOpt, Out.res_tick, outEmit_res]; rfl
    | some b =>
      rw [outOpt, expandOpt, Out.res_tick, Out.res_collect, ihb b hb]
      cases expandList cs (fun f ds => (inner f ds).res) f b with
      | ok xs => exact outEmit_res f { d with block := some xs }
      | _ => rfl
end

theorem outInc_res (cs : List Config) (n : Nat) : ∀ f ds, (outInc cs n f ds).res = performIncludes cs n f ds := by
  induction n with
  | zero => intro f ds; rfl
  | succ n ih =>
    intro f ds
    rw [outInc, performIncludes, outList_res]
    congr 1
    funext f ds
    exact ih f ds

/-! ## More fuel -/

/-- With more fuel, `a` may become `b`. -/
def Out.le (a b : Out) : Prop := a.fin = .fuel ∨ a = b

theorem Out.le_refl (a : Out) : a.le a := Or.inr rfl

theorem Out.le_trans {a b c : Out} (h : a.le b) (h' : b.le c) : a.le c := by
  rcases h with h | rfl
  · exact Or.inl h
  · exact h'

theorem Out.le_tick {a b : Out} (k : Nat) (h : a.le b) : (a.tick k).le (b.tick k) := by
  rcases h with h | rfl
  · exact Or.inl h
  · exact Or.inr rfl

theorem Out.le_fwd {a b : Out} (h : a.le b) : a.fwd.le b.fwd := by
  rcases h with h | rfl
  · exact Or.inl h
  · exact Or.inr rfl

theorem Out.le_andThen {a b a' b' : Out} (h : a.le a') (h' : b.le b') : (a.andThen b).le (a'.andThen b') := by
  rcases h with h | rfl
  · left; unfold andThen; rw [h]; exact h
  · rcases h' with h' | rfl
    · unfold andThen
      cases hf : a.fin with
      | closed => exact Or.inl h'
      | _ => exact Or.inr rfl
    · exact Or.inr rfl

theorem Out.le_collect {a a' : Out} {k k' : List Directive → Out} (h : a.le a') (hk : ∀ xs, (k xs).le (k' xs)) : (a.collect k).le (a'.collect k') := by
  rcases h with h | rfl
  · left; unfold collect; rw [h]
  · unfold collect
    cases hf : a.fin with
    | closed => exact Out.le_tick _ (hk _)
    | _ => exact Or.inr rfl

section
variable {cs : List Config} {inner inner' : Str → List Directive → Out}

theorem outIncl_le (hin : ∀ f ds, (inner f ds).le (inner' f ds)) (f : Str) (d : Directive) (idxs : List Int) :
    (outIncl cs inner f d idxs).le (outIncl cs inner' f d idxs) := by
  induction idxs with
  | nil => exact Out.le_refl _
  | cons idx idxs ih =>
    rw [outIncl, outIncl]
    split
    · exact Out.le_refl _
    · split
      · exact Out.le_refl _
      · split
        · exact Out.le_refl _
        · exact Out.le_tick 1 (Out.le_andThen (Out.le_fwd (hin _ _)) ih)

theorem outEmit_le (hin : ∀ f ds, (inner f ds).le (inner' f ds)) (f : Str) (d : Directive) :
    (outEmit cs inner f d).le (outEmit cs inner' f d) := by
  unfold outEmit
  split
  · exact Out.le_refl _
  · exact Out.le_tick 1 (outIncl_le hin f d _)

theorem outList_le (hin : ∀ f ds, (inner f ds).le (inner' f ds)) (f : Str) (ds : List Directive) :
    (outList cs inner f ds).le (outList cs inner' f ds) := by
  induction ds using listInd with
  | h0 => rw [outList, outList]; exact Out.le_refl _
  | h1 d ds ihb ih =>
    rw [outList, outList, outDir_eq, outDir_eq]
    refine Out.le_andThen ?_ ih
    cases hb : d.block with
    | none => rw [outOpt, outOpt]; exact Out.le_tick 1 (outEmit_le hin f _)
    | some b => rw [outOpt, outOpt]; exact Out.le_tick 1 (Out.le_collect (ihb b hb) (fun xs => outEmit_le hin f _))
end

theorem outInc_le (cs : List Config) (n : Nat) : ∀ f ds, (outInc cs n f ds).le (outInc cs (n + 1) f ds) := by
  induction n with
  | zero => intro f ds; exact Or.inl rfl
  | succ n ih => intro f ds; exact outList_le ih f ds

theorem outG_le {cs : List Config} {n : Nat} {f : Str} {a b : Out} (st : GoSt) (h : a.le b) : (outG cs n f a st).le (outG cs (n + 1) f b st) := by
  induction st with
  | next ds => exact outList_le (outInc_le cs n) f ds
  | block d acc ds => exact Out.le_andThen (Out.le_collect h (fun xs => outEmit_le (outInc_le cs n) f _)) (outList_le (outInc_le cs n) f ds)
  | emit d ds => exact Out.le_andThen (outEmit_le (outInc_le cs n) f _) (outList_le (outInc_le cs n) f ds)
  | incl d idxs ds => exact Out.le_andThen (outIncl_le (outInc_le cs n) f d idxs) (outList_le (outInc_le cs n) f ds)
  | copy d idxs ds =>
    exact Out.le_andThen (Out.le_andThen (Out.le_fwd h) (outIncl_le (outInc_le cs n) f d idxs)) (outList_le (outInc_le cs n) f ds)
  | send x k ih =>
    cases x with
    | dir x =>
      rcases ih with ih | ih
      · exact Or.inl ih
      · right; simp only [outG]; rw [ih]
    | err e => exact Or.inr rfl
  | ret => exact Or.inr rfl

theorem outC_le (cs : List Config) (n : Nat) (ch : List Gor) : (outC cs n ch).le (outC cs (n + 1) ch) := by
  induction ch with
  | nil => exact Or.inr rfl
  | cons g rest ih => exact outG_le g.st ih

/-! ## One step of a chain -/

/-- From `a` a step leads to `b`: the same is still sent, with one step less. -/
structure Out.Next (a b : Out) : Prop where
  items : a.items = b.items
  fin : a.fin = b.fin
  cost : a.cost = b.cost + 1

/-- A step below an error that is being sent has no influence. -/
def Out.Moves (a b : Out) : Prop := a.Next b ∨ a = b ∧ ∃ e, a.fin = .err e

theorem Out.Moves.items {a b : Out} (h : a.Moves b) : a.items = b.items := by
  rcases h with h | ⟨rfl, -⟩
  · exact h.items
  · rfl

theorem Out.Moves.fin {a b : Out} (h : a.Moves b) : a.fin = b.fin := by
  rcases h with h | ⟨rfl, -⟩
  · exact h.fin
  · rfl

theorem Out.Moves.cost {a b : Out} (h : a.Moves b) : b.cost ≤ a.cost := by
  rcases h with h | ⟨rfl, -⟩
  · have := h.cost; omega
  · exact Nat.le_refl _

theorem Out.Moves.one {a b : Out} (h : a.Moves b) (hc : a.fin = .closed) : a.cost = b.cost + 1 := by
  rcases h with h | ⟨rfl, e, he⟩
  · exact h.cost
  · rw [hc] at he; cases he

theorem Out.Next.fwd {a b : Out} (h : a.Next b) : a.fwd.Next b.fwd := by
  obtain ⟨h1, h2, h3⟩ := h
  refine ⟨h1, h2, ?_⟩
  simp only [Out.fwd, h1, h2]; omega

theorem Out.Next.andThen {a b : Out} (c : Out) (h : a.Next b) : (a.andThen c).Next (b.andThen c) := by
  obtain ⟨h1, h2, h3⟩ := h
  unfold Out.andThen
  rw [← h2]
  cases hf : a.fin with
  | closed => exact ⟨by simp [h1], rfl, by simp only []; omega⟩
  | _ => exact ⟨h1, h2, h3⟩

theorem Out.Next.collect {a b : Out} (k : List Directive → Out) (h : a.Next b) : (a.collect k).Next (b.collect k) := by
  obtain ⟨h1, h2, h3⟩ := h
  unfold Out.collect
  rw [← h2, ← h1]
  cases hf : a.fin with
  | closed => exact ⟨rfl, rfl, by simp only [Out.tick]; omega⟩
  | _ => exact ⟨rfl, rfl, by simp only []; omega⟩

theorem Out.Next.outG {cs : List Config} {n : Nat} {f : Str} {a b : Out} (h : a.Next b) : ∀ st : GoSt, st.reads = true →
    (outG cs n f a st).Moves (outG cs n f b st)
  | .block .., _ => Or.inl ((h.collect _).andThen _)
  | .copy .., _ => Or.inl ((h.fwd.andThen _).andThen _)
  | .send (.dir x) k, hr => by
    rcases h.outG k hr with ⟨h1, h2, h3⟩ | ⟨h1, h2⟩
    · exact Or.inl ⟨by simp only [Verif.outG, h1], h2, by simp only [Verif.outG]; omega⟩
    · exact Or.inr ⟨by simp only [Verif.outG, h1], h2⟩
  | .send (.err e) k, _ => Or.inr ⟨rfl, e, rfl⟩

theorem Out.fwd_err {a : Out} {e : GoErr} (h : a.fin = .err e) : a.fwd.fin = .err e := h

theorem Out.andThen_err {a b : Out} {e : GoErr} (h : a.fin = .err e) : (a.andThen b).fin = .err e := by
  unfold andThen; rw [h]; exact h

theorem Out.collect_err {a : Out} {k : List Directive → Out} {e : GoErr} (h : a.fin = .err e) : (a.collect k).fin = .err e := by
  unfold collect; rw [h]

theorem outG_err {cs : List Config} {n : Nat} {f : Str} {a : Out} {e : GoErr} (h : a.fin = .err e) : ∀ st : GoSt, st.reads = true →
    ∃ e', (outG cs n f a st).fin = .err e'
  | .block .., _ => ⟨e, Out.andThen_err (Out.collect_err h)⟩
  | .copy .., _ => ⟨e, Out.andThen_err (Out.andThen_err (Out.fwd_err h))⟩
  | .send (.dir x) k, hr => outG_err (f := f) h k hr
  | .send (.err e) k, _ => ⟨e, rfl⟩

theorem Out.Moves.outG {cs : List Config} {n : Nat} {f : Str} {a b : Out} (h : a.Moves b) (st : GoSt) (hr : st.reads = true) :
    (outG cs n f a st).Moves (outG cs n f b st) := by
  rcases h with h | ⟨rfl, e, h⟩
  · exact h.outG st hr
  · exact Or.inr ⟨rfl, outG_err h st hr⟩

theorem outG_le_child {cs : List Config} {n : Nat} {f : Str} {a b : Out} (st : GoSt) (h : a.le b) : (outG cs n f a st).le (outG cs n f b st) := by
  induction st with
  | block d acc ds => exact Out.le_andThen (Out.le_collect h (fun xs => Out.le_refl _)) (Out.le_refl _)
  | copy d idxs ds => exact Out.le_andThen (Out.le_andThen (Out.le_fwd h) (Out.le_refl _)) (Out.le_refl _)
  | send x k ih =>
    cases x with
    | dir x =>
      rcases ih with ih | ih
      · exact Or.inl ih
      · right; simp only [outG]; rw [ih]
    | err e => exact Or.inr rfl
  | _ => exact Or.inr rfl

theorem Out.andThen_assoc (a b c : Out) : (a.andThen b).andThen c = a.andThen (b.andThen c) := by
  obtain ⟨ai, af, ac⟩ := a
  obtain ⟨bi, bf, bc⟩ := b
  cases af <;> try rfl
  cases bf <;> simp [andThen, Nat.add_assoc]

theorem Out.tick_andThen (k : Nat) (a b : Out) : (a.tick k).andThen b = (a.andThen b).tick k := by
  obtain ⟨ai, af, ac⟩ := a
  cases af <;> simp [andThen, tick]
  omega

theorem Out.next_tick (a : Out) : (a.tick 1).Next a := ⟨rfl, rfl, rfl⟩

theorem outIncl_open {cs : List Config} {inner : Str → List Directive → Out} {i : Nat} {cfg : Config} (h : cs[i]? = some cfg) (f : Str)
    (d : Directive) (idxs : List Int) : outIncl cs inner f d ((i : Int) :: idxs) =
      (((inner cfg.file cfg.parsed).fwd).andThen (outIncl cs inner f d idxs)).tick 1 := by
  have hlt : i < cs.length := (List.getElem?_eq_some_iff.mp h).1
  rw [outIncl, if_neg (by omega), if_neg (by omega)]
  simp only [Int.toNat_natCast, h]

/-- A step does not change what is sent. -/
theorem HeadAct.out {cs : List Config} {ch ch' : List Gor} {o : List (List Gor)} (h : HeadAct cs ch ch' o) (n : Nat) :
    ∃ a, (outC cs n ch).le a ∧ a.le (outC cs (n + 1) ch) ∧ a.Next (outC cs n ch') := by
  have eqv : ∀ {ch ch' : List Gor}, (outC cs n ch).Next (outC cs n ch') →
      ∃ a, (outC cs n ch).le a ∧ a.le (outC cs (n + 1) ch) ∧ a.Next (outC cs n ch') :=
    fun h => ⟨_, Out.le_refl _, outC_le cs n _, h⟩
  induction h with
  | done f => exact eqv ⟨by simp [outC, outG, outList], by simp [outC, outG, outList], by simp [outC, outG, outList]⟩
  | plain f d ds hb =>
    refine eqv ?_
    simp only [outC, outG, outList, outDir_eq, hb, outOpt, Out.tick_andThen]
    have : { d with block := none } = d := by cases d; simp_all
    rw [this]
    exact Out.next_tick _
  | spawn f d ds b hb =>
    refine eqv ?_
    simp only [outC, outG, outList, outDir_eq, hb, outOpt, Out.tick_andThen, List.nil_append]
    exact Out.next_tick _
  | recv f d acc ds f' x k rest =>
    refine eqv ?_
    simp only [outC, outG]
    refine Out.Next.andThen _ ?_
    generalize outG cs n f' (outC cs n rest) k = c
    obtain ⟨ci, cf, cc⟩ := c
    cases cf with
    | closed =>
      simp only [Out.collect, List.append_assoc, List.singleton_append]
      exact ⟨rfl, rfl, by simp only [Out.tick]; omega⟩
    | _ => exact ⟨rfl, rfl, by simp [Out.collect]⟩
  | recvErr f d acc ds f' e k rest =>
    refine eqv ?_
    simp only [outC, outG, Out.collect, Out.andThen]
    exact ⟨rfl, rfl, by simp⟩
  | closed f d acc ds f' =>
    refine eqv ?_
    simp only [outC, outG, Out.collect, List.append_nil, Out.tick_andThen, Nat.zero_add]
    exact Out.next_tick _
  | keep f d ds hi =>
    refine eqv ?_
    simp only [outC, outG, outEmit, hi, Bool.not_false, if_true, Out.andThen, List.singleton_append]
    exact ⟨rfl, rfl, by simp only []; omega⟩
  | incl f d ds hi =>
    refine eqv ?_
    simp only [outC, outG, outEmit, hi, Bool.not_true, Bool.false_eq_true, if_false, Out.tick_andThen]
    exact Out.next_tick _
  | inclDone f d ds =>
    refine eqv ?_
    simp only [outC, outG, outIncl, Out.andThen, List.nil_append]
    exact ⟨rfl, rfl, by simp only []; omega⟩
  | inclBad f d idx idxs ds hi =>
    refine eqv ?_
    simp only [outC, outG, outIncl, if_pos hi, Out.andThen]
    exact ⟨rfl, rfl, by simp⟩
  | inclOpen f d i idxs ds cfg hc =>
    refine ⟨(((outInc cs (n + 1) cfg.file cfg.parsed).fwd.andThen (outIncl cs (outInc cs n) f d idxs)).andThen (outList cs (outInc cs n) f ds)).tick 1,
      ?_, ?_, ?_⟩
    · simp only [outC, outG, outIncl_open hc, Out.tick_andThen]
      exact Out.le_tick 1 (Out.le_andThen (Out.le_andThen (Out.le_fwd (outInc_le cs n _ _)) (Out.le_refl _)) (Out.le_refl _))
    · simp only [outC, outG, outIncl_open hc, Out.tick_andThen]
      exact Out.le_tick 1 (Out.le_andThen (Out.le_andThen (Out.le_refl _) (outIncl_le (outInc_le cs n) f d idxs)) (outList_le (outInc_le cs n) f ds))
    · exact Out.next_tick _
  | forward f d idxs ds f' x k rest =>
    refine eqv ?_
    cases x with
    | err e =>
      simp only [outC, outG, Out.fwd, Out.andThen]
      exact ⟨rfl, rfl, by simp⟩
    | dir x =>
      simp only [outC, outG]
      generalize outG cs n f' (outC cs n rest) k = c
      obtain ⟨ci, cf, cc⟩ := c
      rw [Out.andThen_assoc, Out.andThen_assoc]
      generalize (outIncl cs (outInc cs n) f d idxs).andThen (outList cs (outInc cs n) f ds) = t
      cases cf with
      | closed => exact ⟨rfl, rfl, by simp [Out.fwd, Out.andThen]; omega⟩
      | _ => exact ⟨rfl, rfl, by simp [Out.fwd, Out.andThen]; omega⟩
  | inclNext f d idxs ds f' =>
    refine eqv ?_
    simp only [outC, outG, Out.fwd, Out.andThen_assoc]
    generalize (outIncl cs (outInc cs n) f d idxs).andThen (outList cs (outInc cs n) f ds) = t
    exact ⟨rfl, rfl, by simp [Out.andThen]; omega⟩

/-- A step does not change what is sent. -/
theorem Act.out {cs : List Config} {ch ch' : List Gor} {o : List (List Gor)} (h : Act cs ch ch' o) (n : Nat) :
    ∃ a, (outC cs n ch).le a ∧ a.le (outC cs (n + 1) ch) ∧ a.Moves (outC cs n ch') := by
  induction h with
  | head h =>
    obtain ⟨a, h1, h2, h3⟩ := h.out n
    exact ⟨a, h1, h2, Or.inl h3⟩
  | deeper g rest rest' o hg h ih =>
    obtain ⟨a, h1, h2, h3⟩ := ih
    exact ⟨outG cs n g.file a g.st, outG_le_child g.st h1, outG_le g.st h2, h3.outG g.st hg⟩

/-! ## Chains as they occur -/

/-- Every goroutine but the last one reads from the next one. -/
inductive ChainOk : List Gor → Prop where
  | last (g) (h : g.st.reads = false) : ChainOk [g]
  | cons (g rest) (h : g.st.reads = true) (hr : ChainOk rest) : ChainOk (g :: rest)

theorem ChainOk.ne_nil {ch : List Gor} (h : ChainOk ch) : ch ≠ [] := by cases h <;> simp

/-- A goroutine that reads has a goroutine to read from. -/
theorem ChainOk.step {f : Str} {x : Item} {k : GoSt} {rest : List Gor} (h : ChainOk (⟨f, .send x k⟩ :: rest)) : ChainOk (⟨f, k⟩ :: rest) := by
  cases h with
  | last _ h => exact .last _ h
  | cons _ _ h hr => exact .cons _ _ h hr

theorem HeadAct.ok {cs : List Config} {ch ch' : List Gor} {o : List (List Gor)} (h : HeadAct cs ch ch' o) : ChainOk ch → ChainOk ch' := by
  cases h with
  | spawn f d ds b hb => intro _; exact .cons _ _ rfl (.last _ rfl)
  | inclOpen f d i idxs ds cfg hc => intro _; exact .cons _ _ rfl (.last _ rfl)
  | recv f d acc ds f' x k rest =>
    intro h
    cases h with
    | cons _ _ _ hr => exact .cons _ _ rfl hr.step
  | forward f d idxs ds f' x k rest =>
    intro h
    cases h with
    | cons _ _ _ hr => exact .cons _ _ rfl hr.step
  | _ => intro _; exact .last _ rfl

theorem Act.ok {cs : List Config} {ch ch' : List Gor} {o : List (List Gor)} (h : Act cs ch ch' o) : ChainOk ch → ChainOk ch' := by
  induction h with
  | head h => exact h.ok
  | deeper g rest rest' o hg h ih =>
    intro hc
    cases hc with
    | last _ hl => rw [hg] at hl; cases hl
    | cons _ _ _ hr => exact .cons _ _ hg (ih hr)

theorem Out.andThen_fin_closed {a b : Out} : (a.andThen b).fin = .closed ↔ a.fin = .closed ∧ b.fin = .closed := by
  unfold andThen
  cases h : a.fin <;> simp [h]

theorem Out.collect_fin_closed {a : Out} {k : List Directive → Out} (h : (a.collect k).fin = .closed) : a.fin = .closed := by
  unfold collect at h
  cases hf : a.fin <;> rw [hf] at h <;> first | rfl | cases h

theorem outG_closed {cs : List Config} {n : Nat} {f : Str} {a : Out} : ∀ {st : GoSt}, st.reads = true → (outG cs n f a st).fin = .closed →
    a.fin = .closed
  | .block .., _, h => Out.collect_fin_closed (Out.andThen_fin_closed.mp h).1
  | .copy .., _, h => (Out.andThen_fin_closed.mp (Out.andThen_fin_closed.mp h).1).1
  | .send (.dir x) k, hr, h => outG_closed (st := k) hr h
  | .send (.err e) k, _, h => by cases h

/-- Nothing is left behind if no error is sent. -/
theorem Act.no_orphan {cs : List Config} {ch ch' : List Gor} {o : List (List Gor)} (h : Act cs ch ch' o) {n : Nat} :
    (outC cs n ch).fin = .closed → o = [] := by
  induction h with
  | head h =>
    cases h with
    | recvErr f d acc ds f' e k rest => intro h; simp only [outC, outG, Out.collect, Out.andThen] at h; cases h
    | _ => intro _; rfl
  | deeper g rest rest' o hg h ih => intro hf; exact ih (outG_closed hg hf)

theorem Crashes.not_closed {cs : List Config} {ch : List Gor} (h : Crashes ch) {n : Nat} : (outC cs n ch).fin ≠ .closed := by
  induction h with
  | here f d idx idxs ds hi =>
    simp only [outC, outG, outIncl]
    rw [if_neg (by omega), if_pos hi]
    simp [Out.andThen]
  | deeper g rest hg h ih => exact fun hf => ih (outG_closed hg hf)

theorem outG_fuel {cs : List Config} {n : Nat} {f : Str} {a : Out} (h : a.fin = .fuel) : ∀ {st : GoSt}, st.reads = true →
    (∀ x k, st ≠ .send x k) → (outG cs n f a st).fin = .fuel
  | .block .., _, _ => by simp [outG, Out.collect, h, Out.andThen]
  | .copy .., _, _ => by simp [outG, Out.fwd, h, Out.andThen]
  | .send x k, _, hs => absurd rfl (hs x k)

theorem outG_panic {cs : List Config} {n : Nat} {f : Str} {a : Out} (h : a.fin = .panic) : ∀ {st : GoSt}, st.reads = true →
    (∀ x k, st ≠ .send x k) → (outG cs n f a st).fin = .panic
  | .block .., _, _ => by simp [outG, Out.collect, h, Out.andThen]
  | .copy .., _, _ => by simp [outG, Out.fwd, h, Out.andThen]
  | .send x k, _, hs => absurd rfl (hs x k)

/-- A chain can move towards its end, or crash, or its first goroutine is sending or has returned. -/
theorem ChainOk.progress {cs : List Config} {ch : List Gor} (h : ChainOk ch) (n : Nat) :
    (∃ ch' o, Act cs ch ch' o ∧ ((outC cs n ch).fin ≠ .fuel → (outC cs n ch).Next (outC cs n ch'))) ∨
    Crashes ch ∧ ((outC cs n ch).fin ≠ .fuel → (outC cs n ch).fin = .panic) ∨
    (∃ f x k rest, ch = ⟨f, .send x k⟩ :: rest) ∨ ∃ f, ch = [⟨f, .ret⟩] := by
  have head : ∀ {ch ch' : List Gor} {o : List (List Gor)}, HeadAct cs ch ch' o →
      ∃ ch' o, Act cs ch ch' o ∧ ((outC cs n ch).fin ≠ .fuel → (outC cs n ch).Next (outC cs n ch')) := by
    intro ch ch' o h
    refine ⟨_, _, .head h, fun hf => ?_⟩
    obtain ⟨a, h1, -, h3⟩ := h.out n
    rcases h1 with h1 | rfl
    · exact absurd h1 hf
    · exact h3
  induction h with
  | last g hg =>
    obtain ⟨f, st⟩ := g
    cases st with
    | next ds =>
      cases ds with
      | nil => exact Or.inl (head (.done f))
      | cons d ds =>
        cases hb : d.block with
        | none => exact Or.inl (head (.plain f d ds hb))
        | some b => exact Or.inl (head (.spawn f d ds b hb))
    | block d acc ds => cases hg
    | emit d ds =>
      cases hi : d.isInclude with
      | false => exact Or.inl (head (.keep f d ds hi))
      | true => exact Or.inl (head (.incl f d ds hi))
    | incl d idxs ds =>
      cases idxs with
      | nil => exact Or.inl (head (.inclDone f d ds))
      | cons idx idxs =>
        by_cases h1 : idx ≥ cs.length
        · exact Or.inl (head (.inclBad f d idx idxs ds h1))
        · by_cases h2 : idx < 0
          · refine Or.inr (Or.inl ⟨.here f d idx idxs ds h2, fun _ => ?_⟩)
            simp [outC, outG, outIncl, h1, h2, Out.andThen]
          · obtain ⟨i, rfl⟩ := Int.eq_ofNat_of_zero_le (by omega : 0 ≤ idx)
            have hi : i < cs.length := by omega
            exact Or.inl (head (.inclOpen f d i idxs ds cs[i] (List.getElem?_eq_getElem hi)))
    | copy d idxs ds => cases hg
    | send x k => exact Or.inr (Or.inr (Or.inl ⟨f, x, k, [], rfl⟩))
    | ret => exact Or.inr (Or.inr (Or.inr ⟨f, rfl⟩))
  | cons g rest hg hr ih =>
    by_cases hs : ∃ x k, g.st = .send x k
    · obtain ⟨x, k, hs⟩ := hs
      obtain ⟨f, st⟩ := g
      cases hs
      exact Or.inr (Or.inr (Or.inl ⟨f, x, k, rest, rfl⟩))
    · have hs' : ∀ x k, g.st ≠ .send x k := fun x k h => hs ⟨x, k, h⟩
      rcases ih with ⟨ch', o, h1, h2⟩ | ⟨h1, h2⟩ | ⟨f', x, k, rest', rfl⟩ | ⟨f', rfl⟩
      · refine Or.inl ⟨g :: ch', o, .deeper g rest ch' o hg h1, fun hf => ?_⟩
        replace h2 := h2 (fun h => hf (outG_fuel h hg hs'))
        obtain ⟨f, st⟩ := g
        cases st with
        | block d acc ds => exact (h2.collect _).andThen _
        | copy d idxs ds => exact (h2.fwd.andThen _).andThen _
        | send x k => exact absurd rfl (hs' x k)
        | _ => cases hg
      · exact Or.inr (Or.inl ⟨.deeper g rest hg h1, fun hf => outG_panic (h2 (fun h => hf (outG_fuel h hg hs'))) hg hs'⟩)
      · obtain ⟨f, st⟩ := g
        cases st with
        | block d acc ds =>
          cases x with
          | dir x => exact Or.inl (head (.recv f d acc ds f' x k rest'))
          | err e => exact Or.inl (head (.recvErr f d acc ds f' e k rest'))
        | copy d idxs ds => exact Or.inl (head (.forward f d idxs ds f' x k rest'))
        | send x k => exact absurd rfl (hs' x k)
        | _ => cases hg
      · obtain ⟨f, st⟩ := g
        cases st with
        | block d acc ds => exact Or.inl (head (.closed f d acc ds f'))
        | copy d idxs ds => exact Or.inl (head (.inclNext f d idxs ds f'))
        | send x k => exact absurd rfl (hs' x k)
        | _ => cases hg

end Verif
