import Verif.Proofs.Visits
import Verif.Props.Types
import Verif.Props.Ex
/-!
# C17, C18: status, errors and the error callback
-/
namespace Verif
open Spec

/-- A config error tagged with the file of its config. -/
def tagError (file : Str) (e : ConfigError) : Str × Option Int × GoErr := (file, e.line, e.error)

/-- A payload error without the result of the callback. -/
def PayloadError.core (e : PayloadError) : Str × Option Int × GoErr := (e.file, e.line, e.error)

/-- The error records of the state after a run for `file`: the same new errors in the config and in the payload, the statuses to match, and
the callback called for each of them. -/
structure ErrRel (o : ParseOptions) (file : Str) (a b : PS) : Prop where
  errs : ∃ es : List ConfigError, b.cfgErrors = a.cfgErrors ++ es ∧
    b.payErrors.map PayloadError.core = a.payErrors.map PayloadError.core ++ es.map (tagError file) ∧
    b.cfgStatus = (if es = [] then a.cfgStatus else c!"failed") ∧ b.payStatus = (if es = [] then a.payStatus else c!"failed")
  calls : (∀ cb, o.errorCallback = some cb → a.calls = a.payErrors.length → b.calls = b.payErrors.length ∧
    ((∀ i e, a.payErrors[i]? = some e → e.callback = some (cb i e.error)) → ∀ i e, b.payErrors[i]? = some e → e.callback = some (cb i e.error))) ∧
    (o.errorCallback = none → b.calls = a.calls ∧ ((∀ e ∈ a.payErrors, e.callback = none) → ∀ e ∈ b.payErrors, e.callback = none))

theorem ErrRel.of_same {o : ParseOptions} {file : Str} {a b : PS} (h1 : b.cfgErrors = a.cfgErrors) (h2 : b.payErrors = a.payErrors)
    (h3 : b.cfgStatus = a.cfgStatus) (h4 : b.payStatus = a.payStatus) (h5 : b.calls = a.calls) : ErrRel o file a b where
  errs := ⟨[], by simp [h1], by simp [h2], by simp [h3], by simp [h4]⟩
  calls := ⟨fun cb _ h => ⟨by rw [h5, h2, h], by rw [h2]; exact id⟩, fun _ => ⟨h5, by rw [h2]; exact id⟩⟩

theorem errRel (o : ParseOptions) (file : Str) : StateRel o file (ErrRel o file) where
  refl ps := .of_same rfl rfl rfl rfl rfl
  trans := by
    rintro a b c ⟨⟨e1, h1, h2, h3, h4⟩, k1, k2⟩ ⟨⟨e2, h5, h6, h7, h8⟩, k3, k4⟩
    refine ⟨⟨e1 ++ e2, by rw [h5, h1, List.append_assoc], by rw [h6, h2]; simp, ?_, ?_⟩, ?_, ?_⟩
    · rw [h7, h3]
      by_cases x1 : e1 = [] <;> by_cases x2 : e2 = [] <;> simp [x1, x2]
    · rw [h8, h4]
      by_cases x1 : e1 = [] <;> by_cases x2 : e2 = [] <;> simp [x1, x2]
    · intro cb hcb ha
      obtain ⟨l1, l2⟩ := k1 cb hcb ha
      obtain ⟨l3, l4⟩ := k3 cb hcb l1
      exact ⟨l3, fun h => l4 (l2 h)⟩
    · intro hn
      obtain ⟨l1, l2⟩ := k2 hn
      obtain ⟨l3, l4⟩ := k4 hn
      exact ⟨l3.trans l1, fun h => l4 (l2 h)⟩
  err ps e := by
    refine ⟨⟨[{ line := e.line?, error := e }], rfl, by simp [handleError, PayloadError.core, tagError], by simp [handleError], by simp [handleError]⟩, ?_, ?_⟩
    · intro cb hcb ha
      refine ⟨by simp [handleError, hcb, ha], fun h i x hx => ?_⟩
      simp only [handleError] at hx
      rw [List.getElem?_append] at hx
      split at hx
      · exact h i x hx
      · rename_i hi
        have : i = ps.payErrors.length := by
          have := (List.getElem?_eq_some_iff.mp hx).1
          simp at this; omega
        subst this
        simp only [Nat.sub_self, List.getElem?_cons_zero, Option.some.injEq] at hx
        subst hx
        simp [hcb, ha]
    · intro hn
      refine ⟨by simp [handleError, hn], fun h x hx => ?_⟩
      simp only [handleError, List.mem_append, List.mem_singleton] at hx
      rcases hx with hx | rfl
      · exact h x hx
      · simp [hn]
  opens ps := .of_same rfl rfl rfl rfl rfl
  globs ps := .of_same rfl rfl rfl rfl rfl
  add ctx stmt ps f := by
    unfold addInclude
    cases ps.included.lookup f <;> exact .of_same rfl rfl rfl rfl rfl
  enter stmt ctx ps := by
    unfold enterBlockCtx
    split
    · exact .of_same rfl rfl rfl rfl rfl
    · split <;> exact .of_same rfl rfl rfl rfl rfl

/-- What holds of errors and statuses when the worklist loop ends. -/
theorem FilesOk.errs {env : Env} {o : ParseOptions} {configDir : Str} {ps ps' : PS} {cs : List Config}
    (h : FilesOk env o configDir ps cs ps') :
    ps'.payErrors.map PayloadError.core = ps.payErrors.map PayloadError.core ++ cs.flatMap (fun c => c.errors.map (tagError c.file)) ∧
    (∀ c ∈ cs, c.status = if c.errors = [] then c!"ok" else c!"failed") ∧
    ps'.payStatus = (if cs.flatMap (·.errors) = [] then ps.payStatus else c!"failed") ∧
    (∀ cb, o.errorCallback = some cb → ps.calls = ps.payErrors.length → ps'.calls = ps'.payErrors.length ∧
      ((∀ i e, ps.payErrors[i]? = some e → e.callback = some (cb i e.error)) → ∀ i e, ps'.payErrors[i]? = some e → e.callback = some (cb i e.error))) ∧
    (o.errorCallback = none → ps'.calls = ps.calls ∧ ((∀ e ∈ ps.payErrors, e.callback = none) → ∀ e ∈ ps'.payErrors, e.callback = none)) := by
  induction h with
  | nil ps => exact ⟨by simp, by simp, by simp, fun _ _ h => ⟨h, id⟩, fun _ => ⟨rfl, id⟩⟩
  | ok ps incl rest data ds toks' ps1 cs ps' hi ho hr hf ih =>
    obtain ⟨⟨es, h1, h2, h3, h4⟩, k1, k2⟩ := (errRel o incl.path).runOk hr
    obtain ⟨i1, i2, i3, i4, i5⟩ := ih
    simp only [startFile, List.nil_append] at h1 h2 h3 h4 k1 k2
    refine ⟨?_, ?_, ?_, ?_, ?_⟩
    · rw [i1, h2]; simp [fileConfig, h1]
    · intro c hc
      rcases List.mem_cons.mp hc with rfl | hc
      · simp only [fileConfig, h3, h1]
      · exact i2 c hc
    · rw [i3, h4]
      simp only [List.flatMap_cons, fileConfig, h1]
      by_cases x1 : es = [] <;> by_cases x2 : cs.flatMap (·.errors) = [] <;> simp [x1, x2]
    · intro cb hcb ha
      obtain ⟨l1, l2⟩ := k1 cb hcb ha
      obtain ⟨l3, l4⟩ := i4 cb hcb l1
      exact ⟨l3, fun h => l4 (l2 h)⟩
    · intro hn
      obtain ⟨l1, l2⟩ := k2 hn
      obtain ⟨l3, l4⟩ := i5 hn
      exact ⟨l3.trans l1, fun h => l4 (l2 h)⟩
  | bad ps incl rest data e toks' ps1 cs ps' hi ho hr hs hf ih =>
    obtain ⟨⟨es, h1, h2, h3, h4⟩, k1, k2⟩ := (errRel o incl.path).trans ((errRel o incl.path).runFail hr) ((errRel o incl.path).err ps1 e)
    obtain ⟨i1, i2, i3, i4, i5⟩ := ih
    simp only [startFile, List.nil_append] at h1 h2 h3 h4 k1 k2
    refine ⟨?_, ?_, ?_, ?_, ?_⟩
    · rw [i1, h2]; simp [fileConfig, h1]
    · intro c hc
      rcases List.mem_cons.mp hc with rfl | hc
      · simp only [fileConfig, h3, h1]
      · exact i2 c hc
    · rw [i3, h4]
      simp only [List.flatMap_cons, fileConfig, h1]
      by_cases x1 : es = [] <;> by_cases x2 : cs.flatMap (·.errors) = [] <;> simp [x1, x2]
    · intro cb hcb ha
      obtain ⟨l1, l2⟩ := k1 cb hcb ha
      obtain ⟨l3, l4⟩ := i4 cb hcb l1
      exact ⟨l3, fun h => l4 (l2 h)⟩
    · intro hn
      obtain ⟨l1, l2⟩ := k2 hn
      obtain ⟨l3, l4⟩ := i5 hn
      exact ⟨l3.trans l1, fun h => l4 (l2 h)⟩

/-! ## C17 -/

theorem flatMap_errors_nil {cs : List Config} {es : List PayloadError}
    (h : es.map PayloadError.core = cs.flatMap (fun c => c.errors.map (tagError c.file))) : es = [] ↔ cs.flatMap (·.errors) = [] := by
  have : es.length = (cs.flatMap (·.errors)).length := by
    have h := congrArg List.length h
    simpa [List.length_flatMap] using h
  rw [← List.length_eq_zero_iff, this, List.length_eq_zero_iff]

/-- C17.  The payload's errors are the configs' errors in order, tagged with the config's file (payload not combined). -/
theorem C17_errors {env : Env} {fuel : Nat} {filename : Str} {o : ParseOptions} {p : Payload} (h : Parse env fuel filename o = .ok p)
    (ho : o.combineConfigs = false) :
    p.errors.map PayloadError.core = p.config.flatMap (fun c => c.errors.map (tagError c.file)) := by
  obtain ⟨cs, ps', h1, -, h3, -⟩ := Parse_ok h
  rw [h3 ho]
  exact h1.errs.1

/-- C17.  In a combined payload the single config has the same errors as the payload, without the files. -/
theorem C17_errors_combined {env : Env} {fuel : Nat} {filename : Str} {o : ParseOptions} {p : Payload} (h : Parse env fuel filename o = .ok p)
    (ho : o.combineConfigs = true) :
    ∃ c, p.config = [c] ∧ p.errors.map (fun e => (e.line, e.error)) = c.errors.map (fun e => (e.line, e.error)) := by
  obtain ⟨cs, ps', h1, -, -, h4⟩ := Parse_ok h
  obtain ⟨c0, cs', hcs, -⟩ := h1.ne_nil _ _ rfl
  obtain ⟨a1, -, -, c, a2, a3, -⟩ :=
    C36_errors_status (p := rawPayload ps' cs) (by rw [show (rawPayload ps' cs).config = cs from rfl, hcs]; simp) (h4 ho)
  refine ⟨c, a2, ?_⟩
  rw [a1, a3]
  have := congrArg (List.map (fun x : Str × Option Int × GoErr => x.2)) h1.errs.1
  simp only [List.map_map, List.map_append, initPS, List.map_nil, List.nil_append, List.map_flatMap] at this
  change ps'.payErrors.map (fun e => (e.line, e.error)) = _
  rw [← List.flatMap_def, List.map_flatMap]
  exact this

/-- C17.  The statuses say whether there are errors. -/
theorem C17_status {env : Env} {fuel : Nat} {filename : Str} {o : ParseOptions} {p : Payload} (h : Parse env fuel filename o = .ok p) :
    (p.status = c!"failed" ∧ p.errors ≠ [] ∨ p.status = c!"ok" ∧ p.errors = []) ∧
    ∀ c ∈ p.config, c.status = c!"failed" ∧ c.errors ≠ [] ∨ c.status = c!"ok" ∧ c.errors = [] := by
  obtain ⟨cs, ps', h1, -, h3, h4⟩ := Parse_ok h
  obtain ⟨e1, e2, e3, -⟩ := h1.errs
  simp only [initPS, List.map_nil, List.nil_append] at e1
  have hnil := flatMap_errors_nil e1
  have hst : ps'.payStatus = c!"failed" ∧ ps'.payErrors ≠ [] ∨ ps'.payStatus = c!"ok" ∧ ps'.payErrors = [] := by
    by_cases hx : cs.flatMap (·.errors) = []
    · right; exact ⟨by rw [e3, if_pos hx]; rfl, hnil.mpr hx⟩
    · left; exact ⟨by rw [e3, if_neg hx], fun h => hx (hnil.mp h)⟩
  have hc : ∀ c ∈ cs, c.status = c!"failed" ∧ c.errors ≠ [] ∨ c.status = c!"ok" ∧ c.errors = [] := by
    intro c hc
    have := e2 c hc
    by_cases hx : c.errors = []
    · right; exact ⟨by rw [this, if_pos hx], hx⟩
    · left; exact ⟨by rw [this, if_neg hx], hx⟩
  cases hcomb : o.combineConfigs with
  | false => rw [h3 hcomb]; exact ⟨hst, hc⟩
  | true =>
    obtain ⟨c0, cs', hcs, -⟩ := h1.ne_nil _ _ rfl
    obtain ⟨a1, a2, a3, c, a4, a5, a6, a7⟩ :=
      C36_errors_status (p := rawPayload ps' cs) (by rw [show (rawPayload ps' cs).config = cs from rfl, hcs]; simp) (h4 hcomb)
    change p.errors = ps'.payErrors at a1
    have hne : ps'.payStatus ≠ [] := by rcases hst with ⟨h, -⟩ | ⟨h, -⟩ <;> rw [h] <;> decide
    refine ⟨by rw [a1, a2 hne]; exact hst, ?_⟩
    rw [a4]
    intro c' hc'
    obtain rfl := List.mem_singleton.mp hc'
    rw [← List.flatMap_def] at a5
    by_cases hx : cs.flatMap (·.errors) = []
    · right
      refine ⟨?_, by rw [a5]; exact hx⟩
      rcases a6 with a6 | a6
      · exfalso
        obtain ⟨c2, hc2, hs2⟩ := a7.mp a6
        rcases hc c2 hc2 with ⟨-, hne⟩ | ⟨hok, -⟩
        · exact hne (by
            rw [List.flatMap_eq_nil_iff] at hx
            exact hx c2 hc2)
        · rw [hok] at hs2; revert hs2; decide
      · exact a6
    · left
      refine ⟨a7.mpr ?_, by rw [a5]; exact hx⟩
      rw [List.flatMap_eq_nil_iff] at hx
      simp only [not_forall] at hx
      obtain ⟨c2, hc2, hne⟩ := hx
      refine ⟨c2, hc2, ?_⟩
      rcases hc c2 hc2 with ⟨h, -⟩ | ⟨-, h⟩
      · exact h
      · exact absurd h hne

/-- With CombineConfigs the errors of the one config come from several files, so the payload's errors are not tagged with the
config's file. -/
theorem C17_combined_tags_false : ¬ ∀ (env : Env) (fuel : Nat) (filename : Str) (o : ParseOptions) (p : Payload),
    Parse env fuel filename o = .ok p → p.errors.map PayloadError.core = p.config.flatMap (fun c => c.errors.map (tagError c.file)) := by
  intro h
  have := h (exEnv [(c!"/e/a", c!"include b;"), (c!"/e/b", c!"http;")]) 3 c!"/e/a" { exOpts with combineConfigs := true }
    { status := c!"failed"
      errors := [{ file := c!"/e/b", line := some 1, error := serr c!"directive \"http\" has no opening \"{\"" c!"/e/b" 1 c!"http " c!"main" }]
      config := [{ file := c!"/e/a", status := c!"failed", errors := [{ line := some 1, error := serr c!"directive \"http\" has no opening \"{\"" c!"/e/b" 1 c!"http " c!"main" }] }] }
    (by decide +kernel)
  revert this; decide

/-- Two files, each with an error. -/
example : ∃ p, Parse (exEnv [(c!"/e/a", c!"include b;\nhttp;"), (c!"/e/b", c!"user;")]) 3 c!"/e/a" exOpts = .ok p ∧
    p.status = c!"failed" ∧ p.config.map (fun c => (c.file, c.status, c.errors.map (·.line))) =
      [(c!"/e/a", c!"failed", [some 2]), (c!"/e/b", c!"failed", [some 1])] ∧
    p.errors.map (fun e => (e.file, e.line)) = [(c!"/e/a", some 2), (c!"/e/b", some 1)] := by
  refine ⟨{
    status := c!"failed"
    errors := [
      { file := c!"/e/a", line := some 2, error := serr c!"directive \"http\" has no opening \"{\"" c!"/e/a" 2 c!"http " c!"main" },
      { file := c!"/e/b", line := some 1, error := serr c!"invalid number of arguments in \"user\" directive" c!"/e/b" 1 c!"user " c!"main" }]
    config := [
      { file := c!"/e/a", status := c!"failed", parsed := [incl 1 c!"b" [1]], errors := [{ line := some 2, error := serr c!"directive \"http\" has no opening \"{\"" c!"/e/a" 2 c!"http " c!"main" }] },
      { file := c!"/e/b", status := c!"failed", errors := [{ line := some 1, error := serr c!"invalid number of arguments in \"user\" directive" c!"/e/b" 1 c!"user " c!"main" }] }] },
    by decide +kernel, by decide, by decide, by decide⟩

/-! ## C18 -/

/-- The errors of the payload are those of the state. -/
theorem Parse_errors {env : Env} {fuel : Nat} {filename : Str} {o : ParseOptions} {p : Payload} (h : Parse env fuel filename o = .ok p) :
    ∃ cs ps', FilesOk env o (env.dir filename) (initPS filename) cs ps' ∧ p.errors = ps'.payErrors := by
  obtain ⟨cs, ps', h1, -, h3, h4⟩ := Parse_ok h
  refine ⟨cs, ps', h1, ?_⟩
  cases hcomb : o.combineConfigs with
  | false => rw [h3 hcomb]; rfl
  | true =>
    obtain ⟨c0, cs', hcs, -⟩ := h1.ne_nil _ _ rfl
    exact (C36_errors_status (p := rawPayload ps' cs) (by rw [show (rawPayload ps' cs).config = cs from rfl, hcs]; simp) (h4 hcomb)).1

/-- C18.  The `i`-th recorded error carries the result of the `i`-th call of the callback, made with that error.  (The callback of
the model is told how many calls came before, so the equation says that error `i` is passed to call `i`.) -/
theorem C18_callback {env : Env} {fuel : Nat} {filename : Str} {o : ParseOptions} {p : Payload} (h : Parse env fuel filename o = .ok p)
    {cb : Nat → GoErr → Str} (ho : o.errorCallback = some cb) {i : Nat} {e : PayloadError} (hi : p.errors[i]? = some e) :
    e.callback = some (cb i e.error) := by
  obtain ⟨cs, ps', h1, h2⟩ := Parse_errors h
  rw [h2] at hi
  exact (h1.errs.2.2.2.1 cb ho rfl).2 (fun i e h => by simp [initPS] at h) i e hi

/-- C18.  The number of calls is the number of recorded errors: when the worklist loop has ended, no other call has been made (the rest of
`Parse` makes none). -/
theorem C18_calls {env : Env} {fuel : Nat} {filename : Str} {o : ParseOptions} {cs : List Config} {ps' : PS} {cb : Nat → GoErr → Str}
    (ho : o.errorCallback = some cb) (h : parseFiles env o (env.dir filename) fuel (initPS filename) [] = (.ok cs, ps')) :
    ps'.calls = ps'.payErrors.length := by
  rcases parseFiles_run env o (env.dir filename) fuel (initPS filename) [] with ⟨cs, ps', h1, h2⟩ | ⟨e, ps', h1, h2⟩ | ⟨ps', h1, h2⟩
  · rw [h] at h2
    obtain rfl := (Prod.mk.inj h2).2
    exact (h1.errs.2.2.2.1 cb ho rfl).1
  · rw [h] at h2; cases e <;> cases h2
  · rw [h] at h2; cases h2

/-- C18.  Without callback there is no result. -/
theorem C18_unset {env : Env} {fuel : Nat} {filename : Str} {o : ParseOptions} {p : Payload} (h : Parse env fuel filename o = .ok p)
    (ho : o.errorCallback = none) : ∀ e ∈ p.errors, e.callback = none := by
  obtain ⟨cs, ps', h1, h2⟩ := Parse_errors h
  rw [h2]
  exact (h1.errs.2.2.2.2 ho).2 (fun e h => by simp [initPS] at h)

/-- A callback that counts its calls, with errors in two files. -/
example : ∃ p, Parse (exEnv [(c!"/e/a", c!"include b;\nhttp;"), (c!"/e/b", c!"user;")]) 3 c!"/e/a"
      { exOpts with errorCallback := some (fun n e => decimal n ++ e.error.take 9) } = .ok p ∧
    p.errors.map (·.callback) = [some c!"0directive", some c!"1invalid n"] := by
  refine ⟨{
    status := c!"failed"
    errors := [
      { file := c!"/e/a", line := some 2, error := serr c!"directive \"http\" has no opening \"{\"" c!"/e/a" 2 c!"http " c!"main", callback := some c!"0directive" },
      { file := c!"/e/b", line := some 1, error := serr c!"invalid number of arguments in \"user\" directive" c!"/e/b" 1 c!"user " c!"main", callback := some c!"1invalid n" }]
    config := [
      { file := c!"/e/a", status := c!"failed", parsed := [incl 1 c!"b" [1]], errors := [{ line := some 2, error := serr c!"directive \"http\" has no opening \"{\"" c!"/e/a" 2 c!"http " c!"main" }] },
      { file := c!"/e/b", status := c!"failed", errors := [{ line := some 1, error := serr c!"invalid number of arguments in \"user\" directive" c!"/e/b" 1 c!"user " c!"main" }] }] },
    by decide +kernel, by decide⟩

/-! ## C52 -/

/-- C52.  When a file that is parsed ends in the middle of a statement, the recorded error unwraps to `ErrPrematureLexEnd`, and is
located at the statement's first line. -/
theorem C52_premature {env : Env} {fuel : Nat} {filename : Str} {o : ParseOptions} {p : Payload} (h : Parse env fuel filename o = .ok p)
    {file : Str} {ctx : Ctx} {t : Tok} {toks : List Tok} {ps : PS}
    (hv : FilesVisits env o (env.dir filename) (initPS filename) file ctx t toks ps)
    (h1 : t.error = none) (h2 : t.is c!"}" = false) (h3 : t.isCommentTok = false) (h4 : ∀ t' ∈ toks, t'.isTerm = false) :
    ∃ pe ∈ p.errors, pe.file = file ∧ pe.line = some t.line ∧
      ∃ e, pe.error = .parse e ∧ e.unwrap = some c!"premature end of file" ∧ e.what = c!"premature end of file" ∧
        e.file = some file ∧ e.line = some t.line := by
  have hr : ∀ (toks : List Tok) (args comments : List Str), (∀ t' ∈ toks, t'.isTerm = false) →
      readArgs o.parseComments args comments toks = none := by
    intro toks
    induction toks with
    | nil => intros; rfl
    | cons x toks ih =>
      intro args comments hx
      rw [readArgs, if_neg (by rw [hx x (by simp)]; simp)]
      have := fun a c => ih a c (fun t' ht' => hx t' (by simp [ht']))
      split
      · exact this _ _
      · split <;> exact this _ _
  obtain ⟨cs, ps', hf, he⟩ := Parse_errors h
  obtain ⟨-, v2, -⟩ := FilesOk.visits hv hf
  have := (StepR.premature (env := env) (configDir := env.dir filename) (file := file) (ctx := ctx) (ps := ps) h1 h2 h3 (hr toks [] [] h4)).step_eq
  obtain ⟨-, pe, p1, p2, p3, p4⟩ := v2 _ _ _ this
  rw [he]
  exact ⟨pe, p1, p3, p4, _, p2, rfl, rfl, rfl, rfl⟩

end Verif
