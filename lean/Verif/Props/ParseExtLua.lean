import Verif.Props.ParseExt
/-!
# C88: the goroutine of a Lua lexer can be left behind
-/
namespace Verif
open Spec

section
variable {ρ : Type} {X : ρ → LAct ρ} {exts : Str → Option ρ} {env : Env} {o : ParseOptions} {configDir : Str} {cap xcap : Nat}

/-- A reader that does not receive. -/
def deaf : Reader (Option (Option Tok)) := ⟨fun _ => false, fun r _ => r⟩

theorem deaf_step {σ : Type} {M : σ → TAct σ ρ} {g g' : ExtSt σ ρ (Option (Option Tok))} (h : ExtStep M X deaf cap xcap g g') : ExtStep M X mailbox cap xcap g g' ∧ g'.rd = g.rd := by
  cases h with
  | scan s k x xb c cs l b r h => exact ⟨.scan _ _ _ _ _ _ _ _ _ h, rfl⟩
  | eof s k x xb l b r h => exact ⟨.eof _ _ _ _ _ _ _ h, rfl⟩
  | send s t k x xb cs l b r h hb => exact ⟨.send _ _ _ _ _ _ _ _ _ h hb, rfl⟩
  | handoff s t k x xb cs l r h hw => cases hw
  | call s e ln k x xb cs l b r h => exact ⟨.call _ _ _ _ _ _ _ _ _ _ h, rfl⟩
  | close s x xb cs l b r h => exact ⟨.close _ _ _ _ _ _ _ h, rfl⟩
  | xscan m e k xb c cs l b r h => exact ⟨.xscan _ _ _ _ _ _ _ _ _ h, rfl⟩
  | xeof m e k xb l b r h => exact ⟨.xeof _ _ _ _ _ _ _ h, rfl⟩
  | xsend m e t e' xb cs l b r h hb => exact ⟨.xsend _ _ _ _ _ _ _ _ _ h hb, rfl⟩
  | xhandoff k e t e' cs l b r h => exact ⟨.xhandoff _ _ _ _ _ _ _ _ h, rfl⟩
  | xstop m e xb cs l b r h => exact ⟨.xstop _ _ _ _ _ _ _ h, rfl⟩
  | xrecv k x t xb cs l b r => exact ⟨.xrecv _ _ _ _ _ _ _ _, rfl⟩
  | fwd t k x xb cs l b r hb => exact ⟨.fwd _ _ _ _ _ _ _ _ hb, rfl⟩
  | fwdHandoff t k x xb cs l r hw => cases hw
  | ret k cs l b r => exact ⟨.ret _ _ _ _ _, rfl⟩
  | recv m x xb cs l t b r hw => cases hw
  | recvClosed x xb cs l r hw => cases hw

/-- The goroutines of a file run while `Parse` does nothing. -/
theorem deaf_run {n : Nat} {g g' : FileG ρ} (h : ExtRun (tkAct exts) X deaf cap xcap n g g') (hr : g.rd = none) (m : Main) (pre post : List (FileG ρ)) :
    g'.rd = none ∧ XLiveRun X exts env o configDir cap xcap ⟨m, pre ++ g :: post⟩ ⟨m, pre ++ g' :: post⟩ := by
  induction h with
  | refl => exact ⟨hr, .refl _⟩
  | tail _ hs ih =>
    obtain ⟨h1, h2⟩ := ih hr
    obtain ⟨h3, h4⟩ := deaf_step hs
    rw [h1] at h4
    exact ⟨h4, .tail h2 (.lexer _ _ _ _ _ h3 h4)⟩

/-- `tokenize` reads runes without sending anything, up to the last of them. -/
def scanTo (exts : Str → Option ρ) (st : LexSt) : List Char → Option (TkSt ρ)
  | [] => some (.out [] (some st))
  | [c] => some (tkRound exts st c)
  | c :: cs =>
    match tkRound exts st c with
    | .out [] (some st') => scanTo exts st' cs
    | _ => none

theorem ExtRun.trans {σ ι : Type} {M : σ → TAct σ ρ} {R : Reader ι} {n m : Nat} {a b c : ExtSt σ ρ ι} (h1 : ExtRun M X R cap xcap n a b) (h2 : ExtRun M X R cap xcap m b c) :
    ExtRun M X R cap xcap (n + m) a c := by
  induction h2 with
  | refl => exact h1
  | tail _ hs ih => exact .tail (ih h1) hs

theorem scan_step {ι : Type} {R : Reader ι} {x : XSt ρ} {xb : List Tok} {l : Int} {b : List Tok} {r : ι} (st : LexSt) (c : Char) (cs : List Char) :
    ExtRun (tkAct exts) X R cap xcap 1 ⟨.run (.out [] (some st)), x, xb, c :: cs, l, b, r⟩ ⟨.run (tkRound exts st c), x, xb, cs, l, b, r⟩ := by
  have h : tkAct exts (.out [] (some st)) = .scan fun | none => .out (lexFinish st) none | some c => tkRound exts st c := rfl
  exact .tail (.refl _) (.scan _ _ x xb c cs l b r h)

theorem scanTo_run {ι : Type} {R : Reader ι} {x : XSt ρ} {xb : List Tok} {l : Int} {b : List Tok} {r : ι} (rest : List Char) : ∀ (cs : List Char) (st : LexSt) (s : TkSt ρ),
    scanTo exts st cs = some s →
    ∃ n, ExtRun (tkAct exts) X R cap xcap n ⟨.run (.out [] (some st)), x, xb, cs ++ rest, l, b, r⟩ ⟨.run s, x, xb, rest, l, b, r⟩
  | [], st, s, h => by cases h; exact ⟨0, .refl _⟩
  | [c], st, s, h => by cases h; exact ⟨1, scan_step st c rest⟩
  | c :: c' :: cs, st, s, h => by
    rw [scanTo.eq_def] at h
    simp only at h
    split at h
    · rename_i st' hst
      obtain ⟨n, hn⟩ := scanTo_run rest (c' :: cs) st' s h
      rw [← hst] at hn
      exact ⟨1 + n, (scan_step st c _).trans hn⟩
    · cases h

end

/-- Lines with an empty comment. -/
def emptyComments : Nat → Str
  | 0 => []
  | n + 1 => '#' :: '\n' :: emptyComments n

/-- The lexer at the start of line `l`, after a statement and some comments. -/
def atLine (l s : Int) (nt : Bool) : LexSt := ⟨[], l, s, .skipSpace, nt, true, false, 0, [], true⟩

theorem emptyComments_run {cap xcap : Nat} {xb : List Tok} (rest : List Char) : ∀ (n : Nat) (l s : Int) (nt : Bool) (b : List Tok), b.length + n ≤ cap →
    ∃ k l' s' nt' b', b'.length = b.length + n ∧
      ExtRun (tkAct luaStarts) luaAct deaf cap xcap k ⟨.run (.out [] (some (atLine l s nt))), .none, xb, emptyComments n ++ rest, 0, b, none⟩
        ⟨.run (.out [] (some (atLine l' s' nt'))), .none, xb, rest, 0, b', none⟩
  | 0, l, s, nt, b, _ => ⟨0, l, s, nt, b, rfl, .refl _⟩
  | n + 1, l, s, nt, b, hb => by
    obtain ⟨k, l', s', nt', b', h1, h2⟩ := emptyComments_run (cap := cap) (xcap := xcap) (xb := xb) rest n (l + 1) l false (b ++ [⟨c!"#", l, false, none⟩]) (by simp; omega)
    obtain ⟨k0, h0⟩ := scanTo_run (X := luaAct) (exts := luaStarts) (R := deaf) (cap := cap) (xcap := xcap) (x := .none) (xb := xb) (l := 0) (b := b) (r := none)
      (emptyComments n ++ rest) c!"#\n" (atLine l s nt) (.out [⟨c!"#", l, false, none⟩] (some (atLine (l + 1) l false))) rfl
    refine ⟨_, l', s', nt', b', by simp only [List.length_append, List.length_cons, List.length_nil] at h1; omega, (ExtRun.trans h0 (.tail (.refl _) (.send _ _ _ _ _ _ _ _ _ rfl (by omega)))).trans h2⟩

theorem luaName_scan (l s : Int) (nt : Bool) : scanTo luaStarts (atLine l s nt) c!"content_by_lua_block " =
   some (.name ⟨c!"content_by_lua_block", l, false, none⟩ ⟨c!"content_by_lua_block", l, l, .inWord, false, false, false, 0, [], true⟩ c!" " .start) := by
  cbv

/-- `tokenize` gets to the first token of a Lua block, which the Lua lexer has just sent. -/
theorem luaBlock_run {cap : Nat} {xb : List Tok} (l s : Int) (nt : Bool) (b : List Tok) (hb : b.length < cap) :
    ∃ k g, ExtRun (tkAct luaStarts) luaAct deaf cap 0 k ⟨.run (.out [] (some (atLine l s nt))), .none, xb, c!"content_by_lua_block {}", 0, b, none⟩ g ∧
      g.buf.length = b.length + 1 ∧ (∃ t k, g.main = .fwd t k) ∧ (∃ e t k, g.ext = .live e ∧ luaAct e = .send t k) := by
  obtain ⟨k0, h0⟩ := scanTo_run (X := luaAct) (exts := luaStarts) (R := deaf) (cap := cap) (xcap := 0) (x := .none) (xb := xb) (l := 0) (b := b) (r := none)
      c!"{}" c!"content_by_lua_block " (atLine l s nt) _ (luaName_scan l s nt)
  have h1 := h0.tail (.send _ _ _ _ _ _ _ _ _ rfl hb)
  have h2 := h1.tail (.call _ _ _ _ _ _ _ _ _ _ rfl)
  have xs : ∀ (k : Int → TkSt LuaSt) (c : Char) (cs : List Char) (e e' : LuaSt) (q : Option Char → Int → LuaSt) (b : List Tok), luaAct e = .scan q → q (some c) l = e' → c ≠ '\n' →
      ExtStep (tkAct luaStarts) luaAct deaf cap 0 (⟨.drain k, .live e, [], c :: cs, l, b, none⟩ : FileG LuaSt) ⟨.drain k, .live e', [], cs, l, b, none⟩ := by
    intro k c cs e e' q b h1 h2 h3
    have := ExtStep.xscan (M := tkAct luaStarts) (R := deaf) (cap := cap) (xcap := 0) (.drain k) e q [] c cs l b none h1
    rw [show scanLine l c = l by simp [scanLine, h3], h2] at this
    exact this
  have h3 := h2.tail (xs _ _ _ LuaSt.start (.body 1 false [] []) _ _ rfl rfl (by decide))
  have h4 := h3.tail (xs _ _ _ (.body 1 false [] []) (.out [{ value := [], line := l, quoted := true }, { value := c!";", line := l }] false) _ _ rfl rfl (by decide))
  have h5 := h4.tail (.xhandoff _ _ _ _ _ _ _ _ rfl)
  exact ⟨_, _, h5, by simp, ⟨_, _, rfl⟩, ⟨_, _, _, rfl, rfl⟩⟩

/-- C88, false for Lua: with StopParsingOnError, for every capacity of the channel there is a file with an error such that `Parse` returns the error and two goroutines
are blocked forever: the lexer, with a token of a Lua block that it has received, and the Lua lexer, with its next token. -/
theorem C88_false_lua (n : Nat) : ∃ env o e s g, o.lexers = luaRegisterLexer ∧ o.stopParsingOnError = true ∧ (∃ N, ∀ fuel, N ≤ fuel → Parse env fuel c!"/a" o = .err e) ∧
    XLiveRun luaAct luaStarts env o (env.dir c!"/a") (n + 1) 0 (.init LuaSt c!"/a") s ∧ s.main = .returned (.err e) ∧ g ∈ s.lexers ∧
    Stuck luaStarts (n + 1) g ∧ ExtStuck luaAct (n + 1) 0 g := by
  let o : ParseOptions := { exOpts with stopParsingOnError := true, lexers := luaRegisterLexer }
  let text : Str := c!"user;" ++ (emptyComments n ++ c!"content_by_lua_block {}")
  let env := exEnv [(c!"/a", text)]
  obtain ⟨err, herr⟩ : ∃ err, analyze c!"/a" { directive := c!"user", line := 1, args := [] } c!";" [] o = some err := by
    rw [← Option.isSome_iff_exists]; decide +kernel
  let ps0 : PS := { initPS c!"/a" with includes := [], opens := 1, cfgStatus := c!"ok", cfgErrors := [] }
  let u : Tok := ⟨c!"user", 1, false, none⟩
  let sc : Tok := ⟨c!";", 1, false, none⟩
  have h1 : XLiveRun luaAct luaStarts env o (env.dir c!"/a") (n + 1) 0 (.init LuaSt c!"/a")
      ⟨.file c!"/a" [] (.loop ⟨[], 0, 0⟩ [] ps0 []), [.start text]⟩ :=
    .tail (.refl _) (.openFile _ _ ⟨c!"/a", ⟨[], 0, 0⟩⟩ [] { runes := text } _ rfl rfl)
  obtain ⟨k0, h0⟩ := scanTo_run (X := luaAct) (exts := luaStarts) (R := deaf) (cap := n + 1) (xcap := 0) (x := .none) (xb := []) (l := 0) (b := []) (r := none)
      (emptyComments n ++ c!"content_by_lua_block {}") c!"user;" {} (.out [u, sc] (some (atLine 1 1 false))) (by cbv)
  have h2 := h1.trans (deaf_run h0 rfl _ [] []).2
  have r1 : receive env o (env.dir c!"/a") c!"/a" (.loop ⟨[], 0, 0⟩ [] ps0 []) (some u) = .args u [] [] ⟨[], 0, 0⟩ [] ps0 [] := rfl
  have r2 : receive env o (env.dir c!"/a") c!"/a" (.args u [] [] ⟨[], 0, 0⟩ [] ps0 []) (some sc) = .done (.err (.parse err)) ps0 := by
    have : receive env o (env.dir c!"/a") c!"/a" (.args u [] [] ⟨[], 0, 0⟩ [] ps0 []) (some sc) =
        endStmt env o (env.dir c!"/a") c!"/a" u [] [] sc ⟨[], 0, 0⟩ [] ps0 [] := rfl
    rw [this]
    simp only [endStmt]
    rw [show mapCtx [] = none from rfl]
    simp only
    rw [show contains o.ignoreDirectives u.value = false from rfl]
    simp only [Bool.false_eq_true, if_false]
    rw [show (if o.combineConfigs = true then c!"/a" else []) = [] from rfl]
    rw [show u.value = c!"user" from rfl, show u.line = 1 from rfl, show sc.value = c!";" from rfl, herr]
    rfl
  have s1 : XLiveStep luaAct luaStarts env o (env.dir c!"/a") (n + 1) 0
      ⟨.file c!"/a" [] (.loop ⟨[], 0, 0⟩ [] ps0 []), [⟨.run (.out [u, sc] (some (atLine 1 1 false))), .none, [], emptyComments n ++ c!"content_by_lua_block {}", 0, [], none⟩]⟩
      ⟨.file c!"/a" [] (.args u [] [] ⟨[], 0, 0⟩ [] ps0 []), [⟨.run (.out [sc] (some (atLine 1 1 false))), .none, [], emptyComments n ++ c!"content_by_lua_block {}", 0, [], none⟩]⟩ := by
    rw [← r1]
    exact .receive _ _ _ _ (some u) ⟨.run (.out [sc] (some (atLine 1 1 false))), .none, [], emptyComments n ++ c!"content_by_lua_block {}", 0, [], some (some u)⟩ _
      (by simp) (.handoff _ _ _ _ _ _ _ _ rfl rfl) rfl
  have s2 : XLiveStep luaAct luaStarts env o (env.dir c!"/a") (n + 1) 0
      ⟨.file c!"/a" [] (.args u [] [] ⟨[], 0, 0⟩ [] ps0 []), [⟨.run (.out [sc] (some (atLine 1 1 false))), .none, [], emptyComments n ++ c!"content_by_lua_block {}", 0, [], none⟩]⟩
      ⟨.file c!"/a" [] (.done (.err (.parse err)) ps0), [⟨.run (.out [] (some (atLine 1 1 false))), .none, [], emptyComments n ++ c!"content_by_lua_block {}", 0, [], none⟩]⟩ := by
    rw [← r2]
    exact .receive _ _ _ _ (some sc) ⟨.run (.out [] (some (atLine 1 1 false))), .none, [], emptyComments n ++ c!"content_by_lua_block {}", 0, [], some (some sc)⟩ _
      (by simp) (.handoff _ _ _ _ _ _ _ _ rfl rfl) rfl
  have h3 := ((h2.tail s1).tail s2).tail (.fileDone _ _ _ _ _)
  obtain ⟨k1, l', s', nt', b', e1, h4⟩ := emptyComments_run (cap := n + 1) (xcap := 0) (xb := []) c!"content_by_lua_block {}" n 1 1 false [] (by simp)
  simp only [List.length_nil, Nat.zero_add] at e1
  obtain ⟨k2, g, h5, e2, e3, e4⟩ := luaBlock_run (cap := n + 1) (xb := []) l' s' nt' b' (by omega)
  have h6 := h3.trans (deaf_run (h4.trans h5) rfl _ [] []).2
  have hr : (afterFile o c!"/a" [] ps0 (.err (.parse err))) = .returned (.err (.parse err)) := rfl
  refine ⟨env, o, .parse err, ⟨_, [g]⟩, g, rfl, rfl, C88_result C66_lua h6.sys hr, h6, hr, by simp, ⟨Or.inr e3, by omega⟩, ⟨e3, by omega, e4, by omega⟩⟩

/-- Complete runs with a Lua block, with unbuffered channels: the payload is the expected one, and no goroutine is left. -/
example : ∃ s, XLiveRun luaAct luaStarts (exEnv [(c!"/a", c!"http{init_by_lua_block { a = {} } }")]) { exOpts with lexers := luaRegisterLexer } c!"/e" 0 0 (.init LuaSt c!"/a") s ∧
    s.main = .returned (.ok (okPayload [(c!"/a", [blk c!"http" 1 [] [dir c!"init_by_lua_block" 1 [c!" a = {} "]]])])) ∧
    ∀ g ∈ s.lexers, g.main = .closed ∧ g.ext = .none := by
  have hp : Parse (exEnv [(c!"/a", c!"http{init_by_lua_block { a = {} } }")]) 2 c!"/a" { exOpts with lexers := luaRegisterLexer } =
    .ok (okPayload [(c!"/a", [blk c!"http" 1 [] [dir c!"init_by_lua_block" 1 [c!" a = {} "]]])]) := by decide +kernel
  have hne : Parse (exEnv [(c!"/a", c!"http{init_by_lua_block { a = {} } }")]) 2 c!"/a" { exOpts with lexers := luaRegisterLexer } ≠ .fuel := by rw [hp]; simp
  have hi : Implements luaAct luaStarts (extLexersOf ({ exOpts with lexers := luaRegisterLexer } : ParseOptions).lexers) := C66_lua
  obtain ⟨s, h, hmax⟩ := C88_ends (cap := 0) (xcap := 0) hi hne (.refl (.init LuaSt c!"/a"))
  obtain ⟨⟨r, hr⟩, hend⟩ := C88_end hi h hmax
  refine ⟨s, h, by rw [hr, C88_same hi hne h.sys hr, hp], fun g hg => ?_⟩
  rcases hend g hg with h1 | ⟨h1, -⟩
  · exact h1
  · have := (C88_leak_iff hi hne).mp ⟨s, r, g, h, hr, hg, h1⟩
    have hu : (unreadFiles (exEnv [(c!"/a", c!"http{init_by_lua_block { a = {} } }")]) { exOpts with lexers := luaRegisterLexer }
        ((exEnv [(c!"/a", c!"http{init_by_lua_block { a = {} } }")]).dir c!"/a") 2 (initPS c!"/a") []) = [[]] := by decide +kernel
    rw [hu] at this
    simp at this

end Verif
