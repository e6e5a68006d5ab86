import Verif.Proofs.Causes
import Verif.Props.Ex
/-!
# C79 Every error is about a mistake in the file and on the line that it names
-/
namespace Verif
open Spec

/-- C79.  Every error of a payload is about a mistake in the tokens of the file it names: with the line of the statement, its text and the innermost block. -/
theorem C79_cause {env : Env} {fuel : Nat} {filename : Str} {o : ParseOptions} {p : Payload} (h : Parse env fuel filename o = .ok p) :
    ∀ pe ∈ p.errors, pe.line = pe.error.line? ∧ ∃ k data, env.openFile k pe.file = .ok data ∧
      Cause (rulesOf o) (missingFor env o (env.dir filename) pe.file) (badPatternFor env o (env.dir filename)) pe.file (fileToks o data) pe.error := by
  intro pe hpe
  obtain ⟨cs, ps', hf, hp⟩ := Parse_errors h
  rw [hp] at hpe
  rcases hf.causes pe hpe with h | ⟨⟨ctx, t, toks, ps1, hv, hr⟩, hl⟩
  · simp [initPS] at h
  · obtain ⟨k, data, ho, hs⟩ := hv.suffix
    exact ⟨hl, k, data, ho, hr.cause hs⟩

/-- C79.  So is the error that Parse returns, unless a file cannot be opened or the files include each other. -/
theorem C79_stop {env : Env} (hperm : ∀ l, (env.mapOrder l).Perm l) {fuel : Nat} {filename : Str} {o : ParseOptions} {e : GoErr}
    (h : Parse env fuel filename o = .err e) :
    (∃ k f, env.openFile k f = .error e) ∨ e = cycleError ∨
    o.stopParsingOnError = true ∧ ∃ file k data, env.openFile k file = .ok data ∧
      Cause (rulesOf o) (missingFor env o (env.dir filename) file) (badPatternFor env o (env.dir filename)) file (fileToks o data) e := by
  rcases Parse_cases hperm fuel filename o with ⟨cs, ps', h1, ⟨ha, h2⟩ | ⟨-, p, h2⟩⟩ | ⟨e', ps', h1, h2⟩ | ⟨ps', h1, h2⟩
  · rw [h] at h2
    cases h2
    exact Or.inr (Or.inl rfl)
  · rw [h] at h2; cases h2
  · rw [h] at h2
    cases e' with
    | none => cases h2
    | some e' =>
      cases h2
      rcases h1.origin with ⟨n, ps1, incl, rest, err, hm, hi, ho, he⟩ | ⟨file, ctx, t, toks, ps1, toks2, ps2, hv, hs, h | h⟩
      · cases he
        exact Or.inl ⟨_, _, ho⟩
      · cases h
      · obtain ⟨k, data, ho, hsuf⟩ := hv.suffix
        exact Or.inr (Or.inr ⟨h, file, k, data, ho, ((step_causes _ _ _ _ _ _ _ _).2 _ _ _ hs).cause hsuf⟩)
  · rw [h] at h2; cases h2

/-- C79.  The line of an error is a line of the file. -/
theorem C79_line {env : Env} {fuel : Nat} {filename : Str} {o : ParseOptions} {p : Payload} (h : Parse env fuel filename o = .ok p) (hl : o.lexers = [])
    (hg : ∀ k a e, env.glob k a = .error e → e.line? = none) :
    ∀ pe ∈ p.errors, ∀ l, pe.line = some l → ∃ k data, env.openFile k pe.file = .ok data ∧ 1 ≤ l ∧ l ≤ 1 + nls data.runes := by
  intro pe hpe l hpl
  obtain ⟨h1, k, data, ho, hc⟩ := C79_cause h pe hpe
  rw [hpl] at h1
  refine ⟨k, data, ho, ?_⟩
  have ht : fileToks o data = lex data.runes := by unfold fileToks; rw [hl]; rfl
  rw [ht] at hc
  have bound : ∀ {pre t post}, lex data.runes = pre ++ t :: post → 1 ≤ t.line ∧ t.line ≤ 1 + nls data.runes := by
    intro pre t post h
    exact (C05_lines_ordered data.runes).2 t (by rw [h]; simp)
  have fin : ∀ {t : Tok} {e' : ParseError} {pre post}, lex data.runes = pre ++ t :: post → e'.line = some t.line → some l = (GoErr.parse e').line? →
      1 ≤ l ∧ l ≤ 1 + nls data.runes := by
    intro t e' pre post h h2 h3
    obtain rfl : l = t.line := Option.some.inj (h3.trans h2)
    exact bound h
  generalize pe.error = er at h1 hc
  cases hc with
  | lexer h2 h3 h4 h5 h6 =>
    rename_i pre t post e e'
    have hm : t ∈ lex data.runes := by rw [h2]; simp
    have hle : e.line = some l := h5.symm.trans h1.symm
    refine ⟨Int.le_trans ((C05_lines_ordered data.runes).2 t hm).1 (lex_late data.runes t hm _ l h3 hle), ?_⟩
    rcases C07_errors data.runes with h | ⟨ts, t', e0, g1, g2, g3, -, -, g4⟩
    · rw [h t hm] at h3; cases h3
    · rw [g1] at hm
      rcases List.mem_append.mp hm with hm | hm
      · rw [g2 t hm] at h3; cases h3
      · obtain rfl := List.mem_singleton.mp hm
        rw [h3] at g3
        cases g3
        rcases g4 with g4 | ⟨a, c, b, hs, -, g4⟩
        · obtain rfl := GoErr.parse.inj g4
          cases hle
          exact Int.le_refl _
        · obtain rfl := GoErr.parse.inj g4
          cases hle
          have : 0 ≤ nls (c :: b) := by simp [nls]
          rw [hs, nls_append]
          omega
  | reader h2 h3 h4 h5 h6 => exact fin h2 h5 h1
  | premature h2 h3 h4 h5 h6 h7 => exact fin h2 h6 h1
  | wrong h2 h3 h4 h5 h6 h7 h8 h9 h10 => exact fin h2 h9 h1
  | pattern h2 h3 h4 h5 h6 h7 h8 h9 h10 =>
    obtain ⟨-, -, k, h11⟩ := h10
    rw [hg _ _ _ h11] at h1
    cases h1

/-- C79.  The errors of a file are in the order of their lines. -/
theorem C79_ordered {env : Env} {fuel : Nat} {filename : Str} {o : ParseOptions} {p : Payload} (h : Parse env fuel filename o = .ok p) (hl : o.lexers = [])
    (ho : o.combineConfigs = false) (hg : ∀ k a e, env.glob k a = .error e → e.line? = none) :
    ∀ c ∈ p.config, (c.errors.filterMap (·.line)).Pairwise (· ≤ ·) := by
  obtain ⟨cs, ps', h1, -, h3, -⟩ := Parse_ok h
  rw [h3 ho]
  refine h1.lined hg fun k f data _ => ?_
  have ht : fileToks o data = lex data.runes := by unfold fileToks; rw [hl]; rfl
  rw [ht]
  exact lex_inOrder data.runes

/-! ### Examples -/

/-- A file with a wrong statement, an include of a file that is not there, and a block without an end. -/
def exFaults : Env := exEnv [(c!"/e/n", c!"user;\n\ninclude a;\nhttp {\n  user b;\n")]

/-- Their errors. -/
def exFaultErrors : List (Int × GoErr) :=
  [(1, serr c!"invalid number of arguments in \"user\" directive" c!"/e/n" 1 c!"user " c!"main"),
   (3, serr c!"open /e/a: no such file or directory" c!"/e/n" 3 c!"include a" c!"main"),
   (5, serr c!"\"user\" directive is not allowed here" c!"/e/n" 5 c!"user b" c!"http"),
   (6, serr c!"unexpected end of file, expecting \"}\"" c!"/e/n" 6 [] c!"http")]

example : Parse exFaults 3 c!"/e/n" exOpts = .ok
    { status := c!"failed", errors := exFaultErrors.map fun e => { file := c!"/e/n", line := some e.1, error := e.2 },
      config := [{ file := c!"/e/n", status := c!"failed", errors := exFaultErrors.map fun e => { line := some e.1, error := e.2 } }] } := by
  decide +kernel

/-- The cause of the second. -/
example : Cause (rulesOf exOpts) (missingFor exFaults exOpts c!"/e" c!"/e/n") (badPatternFor exFaults exOpts c!"/e") c!"/e/n"
    (fileToks exOpts { runes := c!"user;\n\ninclude a;\nhttp {\n  user b;\n" })
    (serr c!"open /e/a: no such file or directory" c!"/e/n" 3 c!"include a" c!"main") := by
  have hl : fileToks exOpts { runes := c!"user;\n\ninclude a;\nhttp {\n  user b;\n" } =
      [⟨c!"user", 1, false, none⟩, ⟨c!";", 1, false, none⟩] ++ ⟨c!"include", 3, false, none⟩ :: ([⟨c!"a", 3, false, none⟩] ++ ⟨c!";", 3, false, none⟩ ::
        [⟨c!"http", 4, false, none⟩, ⟨c!"{", 4, false, none⟩, ⟨c!"user", 5, false, none⟩, ⟨c!"b", 5, false, none⟩, ⟨c!";", 5, false, none⟩,
          ⟨[], 5, false, some (err c!"unexpected end of file, expecting \"}\"" 6)⟩]) := by decide +kernel
  refine .wrong (ctx := []) (texts := []) (args := [c!"a"]) hl ⟨rfl, by simp [Mark], by simp [CommentTok, Mark]⟩
    (.word (wordTok_iff.mpr (by decide)) .nil) (Or.inl ⟨rfl, rfl⟩)
    (.incl (mapCtx_none.mp (by decide)) (by simp [rulesOf, exOpts]) ((analyze_rules c!"n" (dir c!"include" 3 [c!"a"]) c!";" [] exOpts).mp (by decide +kernel)) rfl ?_) rfl rfl rfl rfl
  exact ⟨rfl, by decide +kernel, 0, .other c!"open /e/a: no such file or directory", by decide +kernel, rfl⟩

end Verif
