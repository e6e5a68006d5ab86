import Verif.Props.Include
/-!
# C19: StopParsingOnError
-/
namespace Verif
open Spec

/-- The options with StopParsingOnError set to `b`. -/
def ParseOptions.withStop (o : ParseOptions) (b : Bool) : ParseOptions := { o with stopParsingOnError := b }

theorem analyze_withStop (o : ParseOptions) (b : Bool) (file : Str) (d : Directive) (term : Str) (ctx : List Str) :
    analyze file d term ctx (o.withStop b) = analyze file d term ctx o := rfl

theorem doInclude_withStop_ok {env : Env} {o : ParseOptions} {configDir file : Str} {ctx : Ctx} {stmt stmt' : Directive} {ps ps' : PS}
    (h : doInclude env (o.withStop true) configDir file ctx stmt ps = (.ok stmt', ps')) :
    doInclude env (o.withStop false) configDir file ctx stmt ps = (.ok stmt', ps') := by
  have hr := doInclude_inclR env (o.withStop true) configDir file ctx stmt ps
  rw [h] at hr
  unfold doInclude
  cases hr with
  | other h1 => rw [if_neg (by simpa [ParseOptions.withStop] using h1)]
  | globOk a as names h1 h2 h3 h4 =>
    rw [if_pos (show (!(o.withStop false).singleFile && stmt.directive == c!"include") = true from h1), h2]
    simp only
    rw [← resolve, if_pos h3, h4]
  | openBad a as e h1 h2 h3 h4 h5 => cases h5
  | openOk a as data h1 h2 h3 h4 =>
    rw [if_pos (show (!(o.withStop false).singleFile && stmt.directive == c!"include") = true from h1), h2]
    simp only
    rw [← resolve, if_neg (by simp [h3]), h4]

theorem doInclude_withStop_back {env : Env} {o : ParseOptions} {configDir file : Str} {ctx : Ctx} {stmt stmt' : Directive} {ps ps' : PS}
    (h : doInclude env (o.withStop false) configDir file ctx stmt ps = (.ok stmt', ps')) (he : ps'.payErrors.length = ps.payErrors.length) :
    doInclude env (o.withStop true) configDir file ctx stmt ps = (.ok stmt', ps') := by
  have hr := doInclude_inclR env (o.withStop false) configDir file ctx stmt ps
  rw [h] at hr
  unfold doInclude
  cases hr with
  | other h1 => rw [if_neg (by simpa [ParseOptions.withStop] using h1)]
  | globOk a as names h1 h2 h3 h4 =>
    rw [if_pos (show (!(o.withStop true).singleFile && stmt.directive == c!"include") = true from h1), h2]
    simp only
    rw [← resolve, if_pos h3, h4]
  | openBad a as e h1 h2 h3 h4 h5 => simp [handleError] at he
  | openOk a as data h1 h2 h3 h4 =>
    rw [if_pos (show (!(o.withStop true).singleFile && stmt.directive == c!"include") = true from h1), h2]
    simp only
    rw [← resolve, if_neg (by simp [h3]), h4]

/-- With StopParsingOnError nothing is recorded by an include that does not fail. -/
theorem addIncludes_payErrors (file : Str) (ctx : Ctx) (stmt : Directive) (ps : PS) (names : List Str) :
    (addIncludes file ctx stmt ps names).2.payErrors = ps.payErrors := by
  induction names generalizing stmt ps with
  | nil => rfl
  | cons f fs ih =>
    unfold addIncludes
    rw [ih]
    unfold addInclude
    cases ps.included.lookup f <;> rfl

theorem doInclude_stop_payErrors {env : Env} {o : ParseOptions} {configDir file : Str} {ctx : Ctx} {stmt stmt' : Directive} {ps ps' : PS}
    (h : doInclude env (o.withStop true) configDir file ctx stmt ps = (.ok stmt', ps')) : ps'.payErrors = ps.payErrors := by
  have hr := doInclude_inclR env (o.withStop true) configDir file ctx stmt ps
  rw [h] at hr
  cases hr with
  | other h1 => rfl
  | globOk a as names h1 h2 h3 h4 => rw [addIncludes_payErrors]
  | openBad a as e h1 h2 h3 h4 h5 => cases h5
  | openOk a as data h1 h2 h3 h4 => rw [addIncludes_payErrors]

theorem Reads.withStop {o : ParseOptions} {b b' : Bool} {t : Tok} {toks : List Tok} {args comments : List Str} {term : Tok} {rest : List Tok}
    (R : Reads (o.withStop b) t toks args comments term rest) : Reads (o.withStop b') t toks args comments term rest := ⟨R.1, R.2, R.3, R.4⟩

/-- A round that does not fail with StopParsingOnError is the same without it, and records nothing. -/
theorem step_stop {env : Env} {o : ParseOptions} {configDir file : Str} {ctx : Ctx} {t : Tok} {toks : List Tok} {ps : PS} {s : Step}
    (h : step env (o.withStop true) configDir file ctx t toks ps = s) (hs : ∀ e a b, s ≠ .fail e a b) :
    step env (o.withStop false) configDir file ctx t toks ps = s ∧ s.ps.payErrors = ps.payErrors := by
  have hc := step_cases env (o.withStop true) configDir file ctx t toks ps
  rw [h] at hc
  cases hc with
  | tokErr => exact absurd rfl (hs _ _ _)
  | close h1 h2 => exact ⟨(StepR.close (env := env) (configDir := configDir) (file := file) (ps := ps) (o := o.withStop false) h1 h2).step_eq, rfl⟩
  | comment h1 h2 h3 => exact ⟨(StepR.comment (env := env) (configDir := configDir) (file := file) (ps := ps) (o := o.withStop false) h1 h2 h3).step_eq, rfl⟩
  | premature => exact absurd rfl (hs _ _ _)
  | mapFail => exact absurd rfl (hs _ _ _)
  | mapBad _ _ _ _ _ _ _ _ _ hx => cases hx
  | mapOk args comments term rest m R h1 h2 => exact ⟨(StepR.mapOk (env := env) (configDir := configDir) (file := file) (ps := ps) (o := o.withStop false) args comments term rest m R.withStop h1 h2).step_eq, rfl⟩
  | ignored args comments term rest R h1 h2 => exact ⟨(StepR.ignored (env := env) (configDir := configDir) (file := file) (ps := ps) (o := o.withStop false) args comments term rest R.withStop h1 h2).step_eq, rfl⟩
  | rejectFail => exact absurd rfl (hs _ _ _)
  | rejectSkip _ _ _ _ _ _ _ _ _ hx => cases hx
  | rejectStop _ _ _ _ _ _ _ _ _ hx => cases hx
  | reject _ _ _ _ _ _ _ _ _ hx => cases hx
  | panic => exact absurd rfl (hs _ _ _)
  | inclFail => exact absurd rfl (hs _ _ _)
  | simple args comments term rest stmt stmt' ps' R h1 h2 h3 h4 h5 h6 =>
    exact ⟨(StepR.simple (env := env) (configDir := configDir) (file := file) (ps := ps) (o := o.withStop false) args comments term rest stmt stmt' ps' R.withStop h1 h2 h3 h4 (doInclude_withStop_ok h5) h6).step_eq, doInclude_stop_payErrors h5⟩
  | block args comments term rest stmt stmt' ps' R h1 h2 h3 h4 h5 h6 =>
    exact ⟨(StepR.block (env := env) (configDir := configDir) (file := file) (ps := ps) (o := o.withStop false) args comments term rest stmt stmt' ps' R.withStop h1 h2 h3 h4 (doInclude_withStop_ok h5) h6).step_eq, doInclude_stop_payErrors h5⟩

/-- A round without StopParsingOnError that neither fails nor records an error is the same with it. -/
theorem step_nostop {env : Env} {o : ParseOptions} {configDir file : Str} {ctx : Ctx} {t : Tok} {toks : List Tok} {ps : PS} {s : Step}
    (h : step env (o.withStop false) configDir file ctx t toks ps = s) (hs : ∀ e a b, s ≠ .fail e a b)
    (he : s.ps.payErrors.length = ps.payErrors.length) :
    step env (o.withStop true) configDir file ctx t toks ps = s := by
  have hc := step_cases env (o.withStop false) configDir file ctx t toks ps
  rw [h] at hc
  cases hc with
  | tokErr => exact absurd rfl (hs _ _ _)
  | close h1 h2 => exact (StepR.close (env := env) (configDir := configDir) (file := file) (ps := ps) (o := o.withStop true) h1 h2).step_eq
  | comment h1 h2 h3 => exact (StepR.comment (env := env) (configDir := configDir) (file := file) (ps := ps) (o := o.withStop true) h1 h2 h3).step_eq
  | premature => exact absurd rfl (hs _ _ _)
  | mapFail => exact absurd rfl (hs _ _ _)
  | mapBad args comments term rest m err R h1 h2 h3 => simp [Step.ps, handleError] at he
  | mapOk args comments term rest m R h1 h2 => exact (StepR.mapOk (env := env) (configDir := configDir) (file := file) (ps := ps) (o := o.withStop true) args comments term rest m R.withStop h1 h2).step_eq
  | ignored args comments term rest R h1 h2 => exact (StepR.ignored (env := env) (configDir := configDir) (file := file) (ps := ps) (o := o.withStop true) args comments term rest R.withStop h1 h2).step_eq
  | rejectFail => exact absurd rfl (hs _ _ _)
  | rejectSkip => simp [Step.ps, handleError] at he
  | rejectStop => simp [Step.ps, handleError] at he
  | reject => simp [Step.ps, handleError] at he
  | panic => exact absurd rfl (hs _ _ _)
  | inclFail => exact absurd rfl (hs _ _ _)
  | simple args comments term rest stmt stmt' ps' R h1 h2 h3 h4 h5 h6 =>
    exact (StepR.simple (env := env) (configDir := configDir) (file := file) (ps := ps) (o := o.withStop true) args comments term rest stmt stmt' ps' R.withStop h1 h2 h3 h4 (doInclude_withStop_back h5 he) h6).step_eq
  | block args comments term rest stmt stmt' ps' R h1 h2 h3 h4 h5 h6 =>
    exact (StepR.block (env := env) (configDir := configDir) (file := file) (ps := ps) (o := o.withStop true) args comments term rest stmt stmt' ps' R.withStop h1 h2 h3 h4 (doInclude_withStop_back h5 he) h6).step_eq

theorem enterBlockCtx_payErrors (stmt : Directive) (ctx : Ctx) (ps : PS) : (enterBlockCtx stmt ctx ps).2.payErrors = ps.payErrors := by
  unfold enterBlockCtx
  split
  · rfl
  · split <;> rfl

theorem RunOk.stop_to {env : Env} {o : ParseOptions} {configDir file : Str} {ctx : Ctx} {toks : List Tok} {ps : PS}
    {ds : List Directive} {toks' : List Tok} {ps' : PS} (h : RunOk env (o.withStop true) configDir file ctx toks ps ds toks' ps') :
    RunOk env (o.withStop false) configDir file ctx toks ps ds toks' ps' ∧ ps'.payErrors = ps.payErrors := by
  induction h with
  | eof ctx ps => exact ⟨.eof ctx ps, rfl⟩
  | stop ctx t toks ps toks' ps' hs =>
    obtain ⟨h1, h2⟩ := step_stop hs (fun _ _ _ h => by cases h)
    exact ⟨.stop _ _ _ _ _ _ h1, h2⟩
  | next ctx t toks ps new toks1 ps1 ds toks' ps' hs hr ih =>
    obtain ⟨h1, h2⟩ := step_stop hs (fun _ _ _ h => by cases h)
    exact ⟨.next _ _ _ _ _ _ _ _ _ _ h1 ih.1, ih.2.trans h2⟩
  | block ctx t toks ps stmt comments toks1 ps1 b toks2 ps2 ds toks' ps' hs hr1 hr2 ih1 ih2 =>
    obtain ⟨h1, h2⟩ := step_stop hs (fun _ _ _ h => by cases h)
    refine ⟨.block _ _ _ _ _ _ _ _ _ _ _ _ _ _ h1 ih1.1 ih2.1, ?_⟩
    rw [ih2.2, ih1.2, enterBlockCtx_payErrors]
    exact h2

theorem RunOk.stop_from {env : Env} {o : ParseOptions} {configDir file : Str} {ctx : Ctx} {toks : List Tok} {ps : PS}
    {ds : List Directive} {toks' : List Tok} {ps' : PS} (h : RunOk env (o.withStop false) configDir file ctx toks ps ds toks' ps')
    (he : ps'.payErrors.length = ps.payErrors.length) : RunOk env (o.withStop true) configDir file ctx toks ps ds toks' ps' := by
  induction h with
  | eof ctx ps => exact .eof ctx ps
  | stop ctx t toks ps toks' ps' hs => exact .stop _ _ _ _ _ _ (step_nostop hs (fun _ _ _ h => by cases h) he)
  | next ctx t toks ps new toks1 ps1 ds toks' ps' hs hr ih =>
    have g1 := ((payErrors_rel (o.withStop false) file).step env configDir ctx t toks ps).length_le
    rw [hs] at g1
    have g1 : ps.payErrors.length ≤ ps1.payErrors.length := g1
    have g2 := ((payErrors_rel (o.withStop false) file).runOk hr).length_le
    exact .next _ _ _ _ _ _ _ _ _ _ (step_nostop hs (fun _ _ _ h => by cases h) (by change ps1.payErrors.length = _; omega)) (ih (by omega))
  | block ctx t toks ps stmt comments toks1 ps1 b toks2 ps2 ds toks' ps' hs hr1 hr2 ih1 ih2 =>
    have g1 := ((payErrors_rel (o.withStop false) file).step env configDir ctx t toks ps).length_le
    rw [hs] at g1
    have g1 : ps.payErrors.length ≤ ps1.payErrors.length := g1
    have g0 := enterBlockCtx_payErrors stmt ctx ps1
    have g2 := ((payErrors_rel (o.withStop false) file).runOk hr1).length_le
    have g3 := ((payErrors_rel (o.withStop false) file).runOk hr2).length_le
    rw [g0] at g2
    exact .block _ _ _ _ _ _ _ _ _ _ _ _ _ _ (step_nostop hs (fun _ _ _ h => by cases h) (by change ps1.payErrors.length = _; omega))
      (ih1 (by rw [g0]; omega)) (ih2 (by omega))

theorem FilesOk.stop_to {env : Env} {o : ParseOptions} {configDir : Str} {ps ps' : PS} {cs : List Config}
    (h : FilesOk env (o.withStop true) configDir ps cs ps') : FilesOk env (o.withStop false) configDir ps cs ps' ∧ ps'.payErrors = ps.payErrors := by
  induction h with
  | nil ps hi => exact ⟨.nil ps hi, rfl⟩
  | ok ps incl rest data ds toks' ps1 cs ps' hi ho hr hf ih =>
    obtain ⟨h1, h2⟩ := hr.stop_to
    exact ⟨.ok _ _ _ _ _ _ _ _ _ hi ho h1 ih.1, ih.2.trans h2⟩
  | bad ps incl rest data e toks' ps1 cs ps' hi ho hr hs hf ih => cases hs

theorem FilesOk.stop_from {env : Env} {o : ParseOptions} {configDir : Str} {ps ps' : PS} {cs : List Config}
    (h : FilesOk env (o.withStop false) configDir ps cs ps') (he : ps'.payErrors.length = ps.payErrors.length) :
    FilesOk env (o.withStop true) configDir ps cs ps' := by
  induction h with
  | nil ps hi => exact .nil ps hi
  | ok ps incl rest data ds toks' ps1 cs ps' hi ho hr hf ih =>
    have g1 := ((payErrors_rel (o.withStop false) incl.path).runOk hr).length_le
    have g2 := hf.errors_grow.length_le
    have g1 : ps.payErrors.length ≤ ps1.payErrors.length := g1
    exact .ok _ _ _ _ _ _ _ _ _ hi ho (hr.stop_from (by change _ = ps.payErrors.length; omega)) (ih (by omega))
  | bad ps incl rest data e toks' ps1 cs ps' hi ho hr hs hf ih =>
    have g1 := ((payErrors_rel (o.withStop false) incl.path).runFail hr).length_le
    have g2 := hf.errors_grow.length_le
    have g1 : ps.payErrors.length ≤ ps1.payErrors.length := g1
    simp [handleError] at g2
    omega

/-- The bound is used up when it is not greater than the number of files. -/
theorem FilesOk.parseFiles_fuel {env : Env} {o : ParseOptions} {configDir : Str} {ps ps' : PS} {cs : List Config}
    (h : FilesOk env o configDir ps cs ps') (fuel : Nat) (hf : fuel ≤ cs.length) (configs : List Config) :
    (parseFiles env o configDir fuel ps configs).1 = .fuel := by
  induction h generalizing fuel configs with
  | nil ps hi =>
    obtain rfl : fuel = 0 := by simpa using hf
    rfl
  | ok ps incl rest data ds toks' ps1 cs ps' hi ho hr hfo ih =>
    cases fuel with
    | zero => rfl
    | succ fuel =>
      unfold parseFiles
      have := hr.parse_eq ((fileToks o data).length + 1) [] (by omega)
      unfold fileToks startFile at this
      simp only [hi, ho, this]
      exact ih fuel (by simp at hf; omega) _
  | bad ps incl rest data e toks' ps1 cs ps' hi ho hr hs hfo ih =>
    cases fuel with
    | zero => rfl
    | succ fuel =>
      unfold parseFiles
      have := hr.parse_eq ((fileToks o data).length + 1) [] (by omega)
      unfold fileToks startFile at this
      simp only [hi, ho, this, failRes, hs, Bool.false_eq_true, if_false]
      exact ih fuel (by simp at hf; omega) _

/-- What `Parse` gives when the worklist loop ends. -/
theorem FilesOk.Parse_eq {env : Env} {filename : Str} {o : ParseOptions} {cs : List Config} {ps' : PS}
    (h : FilesOk env o (env.dir filename) (initPS filename) cs ps') (fuel : Nat) :
    Parse env fuel filename o = if cs.length < fuel then
      (if isAcyclic env ps' then .err cycleError
        else if o.combineConfigs then combined (cs.length + 1) (rawPayload ps' cs) else .ok (rawPayload ps' cs)) else .fuel := by
  by_cases hf : cs.length < fuel
  · rw [if_pos hf]
    unfold Parse
    rw [h.parseFiles_eq fuel hf []]
    rfl
  · rw [if_neg hf]
    unfold Parse
    have := h.parseFiles_fuel fuel (by omega) []
    generalize parseFiles env o (env.dir filename) fuel (initPS filename) [] = r at this
    obtain ⟨r, ps⟩ := r
    simp only at this
    subst this
    rfl

/-- C19.  `Parse` with StopParsingOnError returns a payload iff `Parse` without it returns the same payload and that has no errors. -/
theorem C19_iff (env : Env) (fuel : Nat) (filename : Str) (o : ParseOptions) (p : Payload) :
    Parse env fuel filename { o with stopParsingOnError := true } = .ok p ↔
      Parse env fuel filename { o with stopParsingOnError := false } = .ok p ∧ p.errors = [] := by
  change Parse env fuel filename (o.withStop true) = .ok p ↔ Parse env fuel filename (o.withStop false) = .ok p ∧ p.errors = []
  constructor
  · intro h
    obtain ⟨cs, ps', h1, h2⟩ := Parse_errors h
    obtain ⟨h3, h4⟩ := h1.stop_to
    refine ⟨?_, by rw [h2, h4]; rfl⟩
    rw [← h, h1.Parse_eq, h3.Parse_eq]
    rfl
  · rintro ⟨h, he⟩
    obtain ⟨cs, ps', h1, h2⟩ := Parse_errors h
    have h3 := h1.stop_from (by rw [← h2, he]; rfl)
    rw [← h, h1.Parse_eq, h3.Parse_eq]
    rfl

/-- C19.  A payload returned with StopParsingOnError has status ok and no errors, and so has each of its configs. -/
theorem C19_ok {env : Env} {fuel : Nat} {filename : Str} {o : ParseOptions} (hs : o.stopParsingOnError = true) {p : Payload}
    (h : Parse env fuel filename o = .ok p) : p.status = c!"ok" ∧ p.errors = [] ∧ ∀ c ∈ p.config, c.status = c!"ok" ∧ c.errors = [] := by
  have ho : o = { o with stopParsingOnError := true } := by cases o; simp at hs; simp [hs]
  have h' := h
  rw [ho] at h'
  have he := ((C19_iff env fuel filename o p).mp h').2
  obtain ⟨h1, -⟩ := C17_status h
  obtain ⟨-, h3⟩ := C17_status h
  refine ⟨?_, he, fun c hc => ?_⟩
  · rcases h1 with ⟨-, h1⟩ | ⟨h1, -⟩
    · exact absurd he h1
    · exact h1
  · rcases h3 c hc with ⟨-, h4⟩ | h4
    · exfalso
      cases hcomb : o.combineConfigs with
      | false =>
        have := C17_errors h hcomb
        rw [he] at this
        have := List.flatMap_eq_nil_iff.mp this.symm c hc
        exact h4 (List.map_eq_nil_iff.mp this)
      | true =>
        obtain ⟨c', hc', h5⟩ := C17_errors_combined h hcomb
        rw [hc'] at hc
        obtain rfl := List.mem_singleton.mp hc
        rw [he] at h5
        exact h4 (List.map_eq_nil_iff.mp h5.symm)
    · exact h4

example : Parse (exEnv [(c!"/e/a", c!"include b;"), (c!"/e/b", c!"user x;")]) 3 c!"/e/a" { exOpts with stopParsingOnError := true } =
    .ok (okPayload [(c!"/e/a", [incl 1 c!"b" [1]]), (c!"/e/b", [dir c!"user" 1 [c!"x"]])]) := by decide +kernel

example : Parse (exEnv [(c!"/e/a", c!"include b;"), (c!"/e/b", c!"user x;\nhttp;")]) 3 c!"/e/a" { exOpts with stopParsingOnError := true } =
    .err (serr c!"directive \"http\" has no opening \"{\"" c!"/e/b" 2 c!"http " c!"main") := by decide +kernel

end Verif
