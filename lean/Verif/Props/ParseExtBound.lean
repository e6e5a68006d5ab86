import Verif.Props.ParseExt
/-!
# C88: a bound for the number of steps

In every state finitely many steps are possible, and no schedule goes on forever, so there is a bound for all schedules.
-/
namespace Verif
open Spec

/-- If no path from `a` is endless and there are finitely many ways to go on everywhere, then there is a bound for the length of the paths. -/
theorem acc_bound {α : Type} {r : α → α → Prop} (hfin : ∀ a, ∃ l : List α, ∀ b, r b a → b ∈ l) {a : α} (ha : Acc r a) :
    ∃ B, ∀ (n : Nat) (f : Nat → α), f 0 = a → (∀ i < n, r (f (i + 1)) (f i)) → n ≤ B := by
  induction ha with
  | intro a _ ih =>
    obtain ⟨l, hl⟩ := hfin a
    have key : ∀ l : List α, ∃ B, ∀ b ∈ l, r b a → ∀ (n : Nat) (f : Nat → α), f 0 = b → (∀ i < n, r (f (i + 1)) (f i)) → n ≤ B := by
      intro l
      induction l with
      | nil => exact ⟨0, by simp⟩
      | cons b l ihl =>
        obtain ⟨B, hB⟩ := ihl
        by_cases hb : r b a
        · obtain ⟨B', hB'⟩ := ih b hb
          refine ⟨B + B', fun x hx hr n f h0 hf => ?_⟩
          rcases List.mem_cons.mp hx with rfl | hx
          · have := hB' n f h0 hf; omega
          · have := hB x hx hr n f h0 hf; omega
        · refine ⟨B, fun x hx hr n f h0 hf => ?_⟩
          rcases List.mem_cons.mp hx with rfl | hx
          · exact absurd hr hb
          · exact hB x hx hr n f h0 hf
    obtain ⟨B, hB⟩ := key l
    refine ⟨B + 1, fun n f h0 hf => ?_⟩
    cases n with
    | zero => omega
    | succ n =>
      have h1 := hf 0 (by omega)
      rw [h0] at h1
      have := hB (f 1) (hl _ h1) h1 n (fun i => f (i + 1)) rfl (fun i hi => hf (i + 1) (by omega))
      omega

section
variable {σ ρ ι : Type} (M : σ → TAct σ ρ) (X : ρ → LAct ρ) (R : Reader ι)

/-- Where the goroutines of a file can get to in a step (and maybe more states). -/
def extNext (g : ExtSt σ ρ ι) : List (ExtSt σ ρ ι) :=
  (match g.main with
    | .run s =>
      match M s with
      | .scan k => [{ g with main := .run (k g.input.head?), input := g.input.tail }]
      | .send t k => [{ g with main := .run k, buf := g.buf ++ [t] }, { g with main := .run k, rd := R.step g.rd (some t) }]
      | .call e ln k => [{ g with main := .drain k, ext := .live e, xbuf := [], line := ln }]
      | .close => [{ g with main := .closed }]
    | .drain k =>
      (match g.xbuf with
        | t :: xb => [{ g with main := .fwd t k, xbuf := xb }]
        | [] => []) ++
      (match g.ext with
        | .live e =>
          match X e with
          | .send t e' => [{ g with main := .fwd t k, ext := .live e' }]
          | _ => []
        | _ => []) ++ [{ g with main := .run (k g.line), ext := .none }]
    | .fwd t k => [{ g with main := .drain k, buf := g.buf ++ [t] }, { g with main := .drain k, rd := R.step g.rd (some t) }]
    | .closed => []) ++
  (match g.ext with
    | .live e =>
      match X e with
      | .scan k =>
        match g.input with
        | c :: cs => [{ g with ext := .live (k (some c) (scanLine g.line c)), input := cs, line := scanLine g.line c }]
        | [] => [{ g with ext := .live (k none g.line) }]
      | .send t e' => [{ g with ext := .live e', xbuf := g.xbuf ++ [t] }]
      | .stop => [{ g with ext := .closed }]
    | _ => []) ++
  (match g.buf with
    | t :: b => [{ g with buf := b, rd := R.step g.rd (some t) }]
    | [] => [{ g with rd := R.step g.rd none }])

theorem extNext_all {cap xcap : Nat} {g g' : ExtSt σ ρ ι} (h : ExtStep M X R cap xcap g g') : g' ∈ extNext M X R g := by
  cases h <;> simp_all [extNext]

end

variable {ρ : Type} {X : ρ → LAct ρ} {exts : Str → Option ρ} {env : Env} {o : ParseOptions} {filename : Str} {cap xcap : Nat}

/-- One of the lexers makes a step. -/
theorem lexers_next {M : TkSt ρ → TAct (TkSt ρ) ρ} {R : Reader (Option (Option Tok))} : ∀ gs : List (FileG ρ), ∃ l : List (List (FileG ρ)),
    ∀ pre g g' post, gs = pre ++ g :: post → ExtStep M X R cap xcap g g' → pre ++ g' :: post ∈ l
  | [] => ⟨[], by intro pre g g' post h; cases pre <;> simp at h⟩
  | a :: gs => by
    obtain ⟨l, hl⟩ := lexers_next (M := M) (R := R) gs
    refine ⟨(extNext M X R a).map (· :: gs) ++ l.map (a :: ·), fun pre g g' post h hs => ?_⟩
    cases pre with
    | nil =>
      simp only [List.nil_append, List.cons.injEq] at h
      obtain ⟨rfl, rfl⟩ := h
      exact List.mem_append_left _ (List.mem_map.mpr ⟨g', extNext_all M X R hs, rfl⟩)
    | cons b pre =>
      simp only [List.cons_append, List.cons.injEq] at h
      obtain ⟨rfl, rfl⟩ := h
      exact List.mem_append_right _ (List.mem_map.mpr ⟨_, hl pre g g' post rfl hs, rfl⟩)

/-- In every state finitely many steps are possible. -/
theorem xstep_finite (configDir : Str) (s : XSys ρ) : ∃ l : List (XSys ρ), ∀ s', XLiveStep X exts env o configDir cap xcap s s' → s' ∈ l := by
  obtain ⟨m, gs⟩ := s
  obtain ⟨l, hl⟩ := lexers_next (X := X) (cap := cap) (xcap := xcap) (M := tkAct exts) (R := mailbox) gs
  have main : ∃ l' : List (XSys ρ), ∀ s', XLiveStep X exts env o configDir cap xcap ⟨m, gs⟩ s' → (∃ gs', s' = ⟨m, gs'⟩ ∧ gs' ∈ l) ∨ s' ∈ l' := by
    cases m with
    | returned r =>
      refine ⟨[], fun s' h => ?_⟩
      generalize hs : (⟨.returned r, gs⟩ : XSys ρ) = s at h
      cases h with
      | lexer m pre g g' post h1 h2 => cases hs; exact Or.inl ⟨_, rfl, hl _ _ _ _ rfl h1⟩
      | _ => cases hs
    | next ps configs =>
      cases hinc : ps.includes with
      | nil =>
        refine ⟨[⟨.returned (finish env o ps configs), gs⟩], fun s' h => ?_⟩
        generalize hs : (⟨.next ps configs, gs⟩ : XSys ρ) = s at h
        cases h with
        | lexer m pre g g' post h1 h2 => cases hs; exact Or.inl ⟨_, rfl, hl _ _ _ _ rfl h1⟩
        | openFail ps' configs' incl rest e gs' h1 h2 => cases hs; rw [hinc] at h1; cases h1
        | openFile ps' configs' incl rest data gs' h1 h2 => cases hs; rw [hinc] at h1; cases h1
        | finish ps' configs' gs' h1 => cases hs; exact Or.inr (by simp)
        | receive => cases hs
        | fileDone => cases hs
      | cons i rest0 =>
        cases ho : env.openFile ps.opens i.path with
        | error e0 =>
          refine ⟨[⟨.returned (.err e0), gs⟩], fun s' h => ?_⟩
          generalize hs : (⟨.next ps configs, gs⟩ : XSys ρ) = s at h
          cases h with
          | lexer m pre g g' post h1 h2 => cases hs; exact Or.inl ⟨_, rfl, hl _ _ _ _ rfl h1⟩
          | openFail ps' configs' incl rest e gs' h1 h2 => cases hs; rw [hinc] at h1; cases h1; rw [ho] at h2; cases h2; exact Or.inr (by simp)
          | openFile ps' configs' incl rest data gs' h1 h2 => cases hs; rw [hinc] at h1; cases h1; rw [ho] at h2; cases h2
          | finish ps' configs' gs' h1 => cases hs; rw [hinc] at h1; cases h1
          | receive => cases hs
          | fileDone => cases hs
        | ok data0 =>
          refine ⟨[⟨.file i.path configs (.loop i.ctx [] { ps with includes := rest0, opens := ps.opens + 1, cfgStatus := c!"ok", cfgErrors := [] } []),
            .start data0.runes :: gs⟩], fun s' h => ?_⟩
          generalize hs : (⟨.next ps configs, gs⟩ : XSys ρ) = s at h
          cases h with
          | lexer m pre g g' post h1 h2 => cases hs; exact Or.inl ⟨_, rfl, hl _ _ _ _ rfl h1⟩
          | openFail ps' configs' incl rest e gs' h1 h2 => cases hs; rw [hinc] at h1; cases h1; rw [ho] at h2; cases h2
          | openFile ps' configs' incl rest data gs' h1 h2 => cases hs; rw [hinc] at h1; cases h1; rw [ho] at h2; cases h2; exact Or.inr (by simp)
          | finish ps' configs' gs' h1 => cases hs; rw [hinc] at h1; cases h1
          | receive => cases hs
          | fileDone => cases hs
    | file path configs st =>
      refine ⟨(match gs with
          | [] => []
          | g :: gs' => (extNext (tkAct exts) X mailbox g).flatMap fun g' =>
            match g'.rd with
            | some t => [⟨.file path configs (receive env o configDir path st t), { g' with rd := none } :: gs'⟩]
            | none => []) ++
        (match st with
          | .done r ps => [⟨afterFile o path configs ps r, gs⟩]
          | _ => []), fun s' h => ?_⟩
      generalize hs : (⟨.file path configs st, gs⟩ : XSys ρ) = s at h
      cases h with
      | lexer m pre g g' post h1 h2 => cases hs; exact Or.inl ⟨_, rfl, hl _ _ _ _ rfl h1⟩
      | openFail => cases hs
      | openFile => cases hs
      | finish => cases hs
      | receive path' configs' st' g t g' gs' hd h1 h2 =>
        cases hs
        refine Or.inr (List.mem_append_left _ ?_)
        simp only [List.mem_flatMap]
        exact ⟨g', extNext_all _ _ _ h1, by rw [h2]; simp⟩
      | fileDone path' configs' r ps gs' => cases hs; exact Or.inr (List.mem_append_right _ (by simp))
  obtain ⟨l', hl'⟩ := main
  refine ⟨l.map (fun gs' => ⟨m, gs'⟩) ++ l', fun s' h => ?_⟩
  rcases hl' s' h with ⟨gs', rfl, hg⟩ | h
  · exact List.mem_append_left _ (List.mem_map.mpr ⟨gs', hg, rfl⟩)
  · exact List.mem_append_right _ h

/-- C88 (bound).  If the sequential `Parse` ends, there is a bound for the number of steps under all schedules. -/
theorem C88_bounded (hi : Implements X exts (extLexersOf o.lexers)) {fuel : Nat} (hf : Parse env fuel filename o ≠ .fuel) :
    ∃ B, ∀ (n : Nat) (f : Nat → XSys ρ), f 0 = .init ρ filename → (∀ i < n, XLiveStep X exts env o (env.dir filename) cap xcap (f i) (f (i + 1))) → n ≤ B :=
  acc_bound (r := fun b a => XLiveStep X exts env o (env.dir filename) cap xcap a b) (xstep_finite (env.dir filename)) (C88_terminates hi hf)

/-- There is a bound for a file with a Lua block that is not closed and an error before it. -/
example (cap : Nat) : ∃ B, ∀ (n : Nat) (f : Nat → XSys LuaSt), f 0 = .init LuaSt c!"/a" →
    (∀ i < n, XLiveStep luaAct luaStarts (exEnv [(c!"/a", c!"user;\ninit_by_lua_block { a = {")]) { exOpts with lexers := luaRegisterLexer, stopParsingOnError := true } c!"/e" cap 0
      (f i) (f (i + 1))) → n ≤ B := by
  have hne : Parse (exEnv [(c!"/a", c!"user;\ninit_by_lua_block { a = {")]) 2 c!"/a" { exOpts with lexers := luaRegisterLexer, stopParsingOnError := true } ≠ .fuel := by
    decide +kernel
  have hi : Implements luaAct luaStarts (extLexersOf ({ exOpts with lexers := luaRegisterLexer, stopParsingOnError := true } : ParseOptions).lexers) := C66_lua
  exact C88_bounded hi hne

end Verif
