import Verif.Props.Stop
import Verif.Props.Works
/-!
# C19, continued: with StopParsingOnError the error is the first that would have been recorded
-/
namespace Verif
open Spec

section
variable {env : Env} {o : ParseOptions} {configDir file : Str}

/-- What an include directive does with and without StopParsingOnError. -/
theorem doInclude_first (env : Env) (o : ParseOptions) (configDir file : Str) (ctx : Ctx) (stmt : Directive) (ps : PS) :
    (doInclude env (o.withStop true) configDir file ctx stmt ps = doInclude env (o.withStop false) configDir file ctx stmt ps ∧
      (doInclude env (o.withStop false) configDir file ctx stmt ps).2.payErrors = ps.payErrors) ∨
    ∃ stmt' ps0 e ps1 c, doInclude env (o.withStop false) configDir file ctx stmt ps = (.ok stmt', ps0) ∧
      doInclude env (o.withStop true) configDir file ctx stmt ps = (.err e, ps1) ∧ ps0.payErrors = ps.payErrors ++ [c] ∧ c.error = e := by
  unfold doInclude
  by_cases hc : (!o.singleFile && stmt.directive == c!"include") = true
  · rw [if_pos (show (!(o.withStop true).singleFile && stmt.directive == c!"include") = true from hc),
      if_pos (show (!(o.withStop false).singleFile && stmt.directive == c!"include") = true from hc)]
    cases stmt.args with
    | nil => exact Or.inl ⟨rfl, rfl⟩
    | cons a as =>
      simp only
      rw [← resolve]
      by_cases hm : hasMagic (resolve env configDir a) = true
      · rw [if_pos hm, if_pos hm]
        cases env.glob ps.globs (resolve env configDir a) with
        | error e => exact Or.inl ⟨rfl, rfl⟩
        | ok names => exact Or.inl ⟨rfl, addIncludes_payErrors _ _ _ _ _⟩
      · rw [if_neg hm, if_neg hm]
        cases env.openFile ps.opens (resolve env configDir a) with
        | error e => exact Or.inr ⟨_, _, _, _, _, rfl, rfl, rfl, rfl⟩
        | ok data => exact Or.inl ⟨rfl, addIncludes_payErrors _ _ _ _ _⟩
  · rw [if_neg (show ¬ (!(o.withStop true).singleFile && stmt.directive == c!"include") = true from hc),
      if_neg (show ¬ (!(o.withStop false).singleFile && stmt.directive == c!"include") = true from hc)]
    exact Or.inl ⟨rfl, rfl⟩

/-- A round that records no error is the same with StopParsingOnError; one that does fails with this error. -/
theorem step_first (env : Env) (o : ParseOptions) (configDir file : Str) (ctx : Ctx) (t : Tok) (toks : List Tok) (ps : PS) :
    (step env (o.withStop true) configDir file ctx t toks ps = step env (o.withStop false) configDir file ctx t toks ps ∧
      (step env (o.withStop false) configDir file ctx t toks ps).ps.payErrors = ps.payErrors) ∨
    ∃ e toks1 ps1 c, step env (o.withStop true) configDir file ctx t toks ps = .fail (some e) toks1 ps1 ∧
      (∀ e a b, step env (o.withStop false) configDir file ctx t toks ps ≠ .fail e a b) ∧
      (step env (o.withStop false) configDir file ctx t toks ps).ps.payErrors = ps.payErrors ++ [c] ∧ c.error = e := by
  have hc := step_cases env (o.withStop false) configDir file ctx t toks ps
  generalize step env (o.withStop false) configDir file ctx t toks ps = s at hc
  cases hc with
  | tokErr e h => exact Or.inl ⟨StepR.step_eq (o := o.withStop true) (.tokErr e h), rfl⟩
  | close h1 h2 => exact Or.inl ⟨StepR.step_eq (o := o.withStop true) (.close h1 h2), rfl⟩
  | comment h1 h2 h3 => exact Or.inl ⟨StepR.step_eq (o := o.withStop true) (.comment h1 h2 h3), rfl⟩
  | premature h1 h2 h3 h4 => exact Or.inl ⟨StepR.step_eq (o := o.withStop true) (.premature h1 h2 h3 h4), rfl⟩
  | mapFail _ _ _ _ _ _ _ _ _ hx => cases hx
  | rejectFail _ _ _ _ _ _ _ _ _ hx => cases hx
  | mapBad args comments term rest m err R h1 h2 h3 =>
    exact Or.inr ⟨_, _, _, _, StepR.step_eq (o := o.withStop true) (.mapFail _ _ _ _ _ _ R.withStop h1 h2 rfl), (fun _ _ _ h => by cases h), rfl, rfl⟩
  | mapOk args comments term rest m R h1 h2 => exact Or.inl ⟨StepR.step_eq (o := o.withStop true) (.mapOk _ _ _ _ _ R.withStop h1 h2), rfl⟩
  | ignored args comments term rest R h1 h2 => exact Or.inl ⟨StepR.step_eq (o := o.withStop true) (.ignored _ _ _ _ R.withStop h1 h2), rfl⟩
  | rejectSkip args comments term rest err R h1 h2 h3 =>
    exact Or.inr ⟨_, _, _, _, StepR.step_eq (o := o.withStop true) (.rejectFail _ _ _ _ _ R.withStop h1 h2 h3 rfl), (fun _ _ _ h => by cases h), rfl, rfl⟩
  | rejectStop args comments term rest err R h1 h2 h3 =>
    exact Or.inr ⟨_, _, _, _, StepR.step_eq (o := o.withStop true) (.rejectFail _ _ _ _ _ R.withStop h1 h2 h3 rfl), (fun _ _ _ h => by cases h), rfl, rfl⟩
  | reject args comments term rest err R h1 h2 h3 =>
    exact Or.inr ⟨_, _, _, _, StepR.step_eq (o := o.withStop true) (.rejectFail _ _ _ _ _ R.withStop h1 h2 h3 rfl), (fun _ _ _ h => by cases h), rfl, rfl⟩
  | panic _ _ _ _ R h1 h2 h3 h4 => exact Or.inl ⟨StepR.step_eq (o := o.withStop true) (.panic _ _ _ _ R.withStop h1 h2 h3 h4), rfl⟩
  | inclFail args comments term rest stmt e ps' R h1 h2 h3 h4 h5 =>
    rcases doInclude_first env o configDir file ctx stmt ps with ⟨e1, e2⟩ | ⟨_, _, _, _, _, e1, -⟩
    · rw [h5] at e1 e2
      exact Or.inl ⟨StepR.step_eq (o := o.withStop true) (.inclFail _ _ _ _ _ _ _ R.withStop h1 h2 h3 h4 e1), e2⟩
    · rw [h5] at e1; cases e1
  | simple args comments term rest stmt stmt' ps' R h1 h2 h3 h4 h5 h6 =>
    rcases doInclude_first env o configDir file ctx stmt ps with ⟨e1, e2⟩ | ⟨_, _, _, _, c, e1, e2, e3, e4⟩
    · rw [h5] at e1 e2
      exact Or.inl ⟨StepR.step_eq (o := o.withStop true) (.simple _ _ _ _ _ _ _ R.withStop h1 h2 h3 h4 e1 h6), e2⟩
    · rw [h5] at e1; cases e1
      exact Or.inr ⟨_, _, _, _, StepR.step_eq (o := o.withStop true) (.inclFail _ _ _ _ _ _ _ R.withStop h1 h2 h3 h4 e2), (fun _ _ _ h => by cases h), e3, e4⟩
  | block args comments term rest stmt stmt' ps' R h1 h2 h3 h4 h5 h6 =>
    rcases doInclude_first env o configDir file ctx stmt ps with ⟨e1, e2⟩ | ⟨_, _, _, _, c, e1, e2, e3, e4⟩
    · rw [h5] at e1 e2
      exact Or.inl ⟨StepR.step_eq (o := o.withStop true) (.block _ _ _ _ _ _ _ R.withStop h1 h2 h3 h4 e1 h6), e2⟩
    · rw [h5] at e1; cases e1
      exact Or.inr ⟨_, _, _, _, StepR.step_eq (o := o.withStop true) (.inclFail _ _ _ _ _ _ _ R.withStop h1 h2 h3 h4 e2), (fun _ _ _ h => by cases h), e3, e4⟩

/-- `r1` is what a computation gives with StopParsingOnError that without it gives `r0` and adds the errors `new`: the same if there are none, else the first. -/
def FirstOf {α β : Type} (new : List PayloadError) (r0 r1 : Res α × β) : Prop :=
  (new = [] → r1 = r0) ∧ ∀ c cs, new = c :: cs → r1.1 = .err c.error

theorem parse_first (env : Env) (o : ParseOptions) (configDir file : Str) (fuel : Nat) : ∀ (ctx : Ctx) (toks : List Tok) (parsed : List Directive) (ps : PS),
    ∃ new, (parse env (o.withStop false) configDir file fuel ctx toks parsed ps).2.2.payErrors = ps.payErrors ++ new ∧
      FirstOf new (parse env (o.withStop false) configDir file fuel ctx toks parsed ps) (parse env (o.withStop true) configDir file fuel ctx toks parsed ps) := by
  have hstay : ∀ {α β : Type} (r : Res α × β), FirstOf [] r r := fun r => ⟨fun _ => rfl, fun _ _ h => by cases h⟩
  have hfound : ∀ {α β : Type} {c : PayloadError} {new : List PayloadError} {r0 r1 : Res α × β}, r1.1 = .err c.error → FirstOf (c :: new) r0 r1 :=
    fun h => ⟨(fun h => by cases h), fun _ _ h' => by cases h'; exact h⟩
  induction fuel with
  | zero =>
    intro ctx toks parsed ps
    unfold parse
    exact ⟨[], by simp, hstay _⟩
  | succ fuel ih =>
    intro ctx toks parsed ps
    cases toks with
    | nil =>
      unfold parse
      exact ⟨[], by simp, hstay _⟩
    | cons t toks =>
      rw [parse_step, parse_step]
      have hgrow : ∀ (ps1 : PS) (r : Res (List Directive) × List Tok × PS), (∃ new, r.2.2.payErrors = ps1.payErrors ++ new) →
        ∀ c, ps1.payErrors = ps.payErrors ++ [c] → ∃ new, r.2.2.payErrors = ps.payErrors ++ c :: new := by
        rintro ps1 r ⟨new, h⟩ c hc
        exact ⟨new, by rw [h, hc]; simp⟩
      rcases step_first env o configDir file ctx t toks ps with ⟨e1, e2⟩ | ⟨e, toks1, ps1, c, e1, hnf, e2, rfl⟩
      · rw [e1]
        generalize step env (o.withStop false) configDir file ctx t toks ps = s at e2
        cases s with
        | stop toks' ps' => exact ⟨[], by rw [List.append_nil]; exact e2, hstay _⟩
        | fail e toks' ps' => exact ⟨[], by rw [List.append_nil]; exact e2, hstay _⟩
        | next new toks' ps' =>
          obtain ⟨more, h1, h2⟩ := ih ctx toks' (parsed ++ new) ps'
          exact ⟨more, by rw [← e2]; exact h1, h2⟩
        | block stmt comments toks' ps' =>
          obtain ⟨more, h1, h2, h3⟩ := ih (enterBlockCtx stmt ctx ps').1 toks' [] (enterBlockCtx stmt ctx ps').2
          rw [enterBlockCtx_payErrors] at h1
          simp only [Step.ps] at e2
          rw [e2] at h1
          simp only
          generalize parse env (o.withStop false) configDir file fuel (enterBlockCtx stmt ctx ps').1 toks' [] (enterBlockCtx stmt ctx ps').2 = r0 at h1 h2 h3
          generalize parse env (o.withStop true) configDir file fuel (enterBlockCtx stmt ctx ps').1 toks' [] (enterBlockCtx stmt ctx ps').2 = r1 at h2 h3
          obtain ⟨r0, toks2, ps2⟩ := r0
          cases more with
          | nil =>
            rw [h2 rfl]
            cases r0 with
            | ok b =>
              obtain ⟨more, g1, g2⟩ := ih ctx toks2 (parsed ++ [{ stmt with block := some b }] ++
                commentDirectives stmt.line (if o.combineConfigs then file else []) comments) ps2
              refine ⟨more, ?_, g2⟩
              simp only [List.append_nil] at h1
              rw [← h1]; exact g1
            | err e => exact ⟨[], h1, hstay _⟩
            | panic => exact ⟨[], h1, hstay _⟩
            | fuel => exact ⟨[], h1, hstay _⟩
          | cons c more =>
            have h3 := h3 c more rfl
            obtain ⟨r1, toks3, ps3⟩ := r1
            simp only at h3
            subst h3
            cases r0 with
            | ok b =>
              obtain ⟨more', g1, -⟩ := ih ctx toks2 (parsed ++ [{ stmt with block := some b }] ++
                commentDirectives stmt.line (if o.combineConfigs then file else []) comments) ps2
              simp only at h1
              refine ⟨c :: (more ++ more'), ?_, hfound rfl⟩
              refine g1.trans ?_
              rw [h1]; simp
            | err e => exact ⟨c :: more, h1, hfound rfl⟩
            | panic => exact ⟨c :: more, h1, hfound rfl⟩
            | fuel => exact ⟨c :: more, h1, hfound rfl⟩
      · rw [e1]
        generalize step env (o.withStop false) configDir file ctx t toks ps = s at e2 hnf
        cases s with
        | stop toks' ps' => exact ⟨[c], e2, hfound rfl⟩
        | fail e toks' ps' => exact absurd rfl (hnf _ _ _)
        | next new toks' ps' =>
          obtain ⟨more, h1, h2⟩ := ih ctx toks' (parsed ++ new) ps'
          obtain ⟨more, h1⟩ := hgrow _ _ ⟨more, h1⟩ c e2
          exact ⟨c :: more, h1, hfound rfl⟩
        | block stmt comments toks' ps' =>
          obtain ⟨more, h1, -⟩ := ih (enterBlockCtx stmt ctx ps').1 toks' [] (enterBlockCtx stmt ctx ps').2
          rw [enterBlockCtx_payErrors] at h1
          obtain ⟨more, h1⟩ := hgrow ps' _ ⟨more, h1⟩ c e2
          simp only
          generalize parse env (o.withStop false) configDir file fuel (enterBlockCtx stmt ctx ps').1 toks' [] (enterBlockCtx stmt ctx ps').2 = r0 at h1
          obtain ⟨r0, toks2, ps2⟩ := r0
          cases r0 with
          | ok b =>
            obtain ⟨more', g1, -⟩ := ih ctx toks2 (parsed ++ [{ stmt with block := some b }] ++
              commentDirectives stmt.line (if o.combineConfigs then file else []) comments) ps2
            simp only at h1
            refine ⟨c :: (more ++ more'), ?_, hfound rfl⟩
            refine g1.trans ?_
            rw [h1]; simp
          | err e => exact ⟨c :: more, h1, hfound rfl⟩
          | panic => exact ⟨c :: more, h1, hfound rfl⟩
          | fuel => exact ⟨c :: more, h1, hfound rfl⟩

/-- The loop after a file has been parsed. -/
def afterRead (env : Env) (o : ParseOptions) (configDir : Str) (fuel : Nat) (file : Str) (cs : List Config) (r : Res (List Directive) × List Tok × PS) : Res (List Config) × PS :=
  match r with
  | (.ok parsed, _, ps) => parseFiles env o configDir fuel ps (cs ++ [{ file := file, status := ps.cfgStatus, errors := ps.cfgErrors, parsed := parsed }])
  | (.err e, _, ps) =>
    if o.stopParsingOnError then (.err e, ps)
    else
      let ps := handleError o file ps e
      parseFiles env o configDir fuel ps (cs ++ [{ file := file, status := ps.cfgStatus, errors := ps.cfgErrors, parsed := [] }])
  | (.panic, _, ps) => (.panic, ps)
  | (.fuel, _, ps) => (.fuel, ps)

theorem parseFiles_first (env : Env) (o : ParseOptions) (configDir : Str) (fuel : Nat) : ∀ (ps : PS) (cs : List Config),
    ∃ new, (parseFiles env (o.withStop false) configDir fuel ps cs).2.payErrors = ps.payErrors ++ new ∧
      FirstOf new (parseFiles env (o.withStop false) configDir fuel ps cs) (parseFiles env (o.withStop true) configDir fuel ps cs) := by
  have hstay : ∀ {α β : Type} (r : Res α × β), FirstOf [] r r := fun r => ⟨fun _ => rfl, fun _ _ h => by cases h⟩
  have hfound : ∀ {α β : Type} {c : PayloadError} {new : List PayloadError} {r0 r1 : Res α × β}, r1.1 = .err c.error → FirstOf (c :: new) r0 r1 :=
    fun h => ⟨(fun h => by cases h), fun _ _ h' => by cases h'; exact h⟩
  induction fuel with
  | zero =>
    intro ps cs
    exact ⟨[], by simp [parseFiles], hstay _⟩
  | succ fuel ih =>
    intro ps cs
    unfold parseFiles
    cases hl : ps.includes with
    | nil => exact ⟨[], by simp, hstay _⟩
    | cons incl rest =>
      simp only
      cases ho : env.openFile ps.opens incl.path with
      | error e => exact ⟨[], by simp, hstay _⟩
      | ok data =>
        simp only
        obtain ⟨new, h1, h2, h3⟩ := parse_first env o configDir incl.path ((lexWith (extLexersOf o.lexers) data.runes).length + 1) incl.ctx
          (lexWith (extLexersOf o.lexers) data.runes) [] { ps with includes := rest, opens := ps.opens + 1, cfgStatus := c!"ok", cfgErrors := [] }
        change ∃ new, (afterRead env (o.withStop false) configDir fuel incl.path cs (parse env (o.withStop false) configDir incl.path
          ((lexWith (extLexersOf o.lexers) data.runes).length + 1) incl.ctx
          (lexWith (extLexersOf o.lexers) data.runes) [] { ps with includes := rest, opens := ps.opens + 1, cfgStatus := c!"ok", cfgErrors := [] })).2.payErrors =
            ps.payErrors ++ new ∧
          FirstOf new (afterRead env (o.withStop false) configDir fuel incl.path cs (parse env (o.withStop false) configDir incl.path
          ((lexWith (extLexersOf o.lexers) data.runes).length + 1) incl.ctx
          (lexWith (extLexersOf o.lexers) data.runes) [] { ps with includes := rest, opens := ps.opens + 1, cfgStatus := c!"ok", cfgErrors := [] }))
          (afterRead env (o.withStop true) configDir fuel incl.path cs (parse env (o.withStop true) configDir incl.path
          ((lexWith (extLexersOf o.lexers) data.runes).length + 1) incl.ctx
          (lexWith (extLexersOf o.lexers) data.runes) [] { ps with includes := rest, opens := ps.opens + 1, cfgStatus := c!"ok", cfgErrors := [] }))
        generalize parse env (o.withStop false) configDir incl.path ((lexWith (extLexersOf o.lexers) data.runes).length + 1) incl.ctx
          (lexWith (extLexersOf o.lexers) data.runes) [] { ps with includes := rest, opens := ps.opens + 1, cfgStatus := c!"ok", cfgErrors := [] } = r0 at h1 h2 h3
        generalize parse env (o.withStop true) configDir incl.path ((lexWith (extLexersOf o.lexers) data.runes).length + 1) incl.ctx
          (lexWith (extLexersOf o.lexers) data.runes) [] { ps with includes := rest, opens := ps.opens + 1, cfgStatus := c!"ok", cfgErrors := [] } = r1 at h2 h3
        obtain ⟨r0, toks0, ps0⟩ := r0
        simp only at h1
        cases new with
        | nil =>
          rw [h2 rfl]
          rw [List.append_nil] at h1
          cases r0 with
          | ok parsed =>
            obtain ⟨more, g1, g2⟩ := ih ps0 (cs ++ [{ file := incl.path, status := ps0.cfgStatus, errors := ps0.cfgErrors, parsed := parsed }])
            exact ⟨more, by rw [← h1]; exact g1, g2⟩
          | err e =>
            obtain ⟨more, g1, -⟩ := ih (handleError (o.withStop false) incl.path ps0 e)
              (cs ++ [{ file := incl.path, status := c!"failed", errors := (handleError (o.withStop false) incl.path ps0 e).cfgErrors, parsed := [] }])
            refine ⟨{ file := incl.path, line := e.line?, error := e, callback := o.errorCallback.map (fun cb => cb ps0.calls e) } :: more, g1.trans ?_, hfound rfl⟩
            simp only [handleError, h1, List.append_assoc, List.singleton_append]
            rfl
          | panic => exact ⟨[], by rw [List.append_nil]; exact h1, hstay _⟩
          | fuel => exact ⟨[], by rw [List.append_nil]; exact h1, hstay _⟩
        | cons c new =>
          obtain ⟨r1, toks1, ps1⟩ := r1
          have h3 := h3 c new rfl
          simp only at h3
          subst h3
          cases r0 with
          | ok parsed =>
            obtain ⟨more, g1, -⟩ := ih ps0 (cs ++ [{ file := incl.path, status := ps0.cfgStatus, errors := ps0.cfgErrors, parsed := parsed }])
            exact ⟨c :: (new ++ more), by refine g1.trans ?_; rw [h1]; simp, hfound rfl⟩
          | err e =>
            obtain ⟨more, g1, -⟩ := ih (handleError (o.withStop false) incl.path ps0 e)
              (cs ++ [{ file := incl.path, status := c!"failed", errors := (handleError (o.withStop false) incl.path ps0 e).cfgErrors, parsed := [] }])
            refine ⟨c :: (new ++ { file := incl.path, line := e.line?, error := e, callback := o.errorCallback.map (fun cb => cb ps0.calls e) } :: more), g1.trans ?_, hfound rfl⟩
            simp only [handleError, h1, List.append_assoc, List.singleton_append, List.cons_append]
            rfl
          | panic => exact ⟨c :: new, h1, hfound rfl⟩
          | fuel => exact ⟨c :: new, h1, hfound rfl⟩

/-- C19.  If `Parse` records errors, with StopParsingOnError it returns the first of them. -/
theorem C19_first {fuel : Nat} {filename : Str} {p : Payload} {c : PayloadError} {cs : List PayloadError}
    (h : Parse env fuel filename { o with stopParsingOnError := false } = .ok p) (he : p.errors = c :: cs) :
    Parse env fuel filename { o with stopParsingOnError := true } = .err c.error := by
  change Parse env fuel filename (o.withStop false) = .ok p at h
  change Parse env fuel filename (o.withStop true) = _
  obtain ⟨new, h1, -, h3⟩ := parseFiles_first env o (env.dir filename) fuel (initPS filename) []
  have hp : p.errors = (parseFiles env (o.withStop false) (env.dir filename) fuel (initPS filename) []).2.payErrors := by
    obtain ⟨cfgs, ps', hf, hp⟩ := Parse_errors h
    rw [hf.Parse_eq] at h
    by_cases hl : cfgs.length < fuel
    · rw [hf.parseFiles_eq fuel hl [], hp]
    · rw [if_neg hl] at h; cases h
  have h3 := h3 c cs (by rw [← hp, he] at h1; exact h1.symm)
  unfold Parse
  generalize parseFiles env (o.withStop true) (env.dir filename) fuel (initPS filename) [] = r at h3
  obtain ⟨r, ps⟩ := r
  simp only at h3
  subst h3
  rfl

/-- C19.  If `Parse` fails, with StopParsingOnError it fails too, with the same error or an error of the configuration. -/
theorem C19_err {fuel : Nat} {filename : Str} {e : GoErr} (h : Parse env fuel filename { o with stopParsingOnError := false } = .err e) :
    ∃ e', Parse env fuel filename { o with stopParsingOnError := true } = .err e' := by
  change Parse env fuel filename (o.withStop false) = .err e at h
  change ∃ e', Parse env fuel filename (o.withStop true) = _
  obtain ⟨new, h1, h2, h3⟩ := parseFiles_first env o (env.dir filename) fuel (initPS filename) []
  cases new with
  | nil =>
    refine ⟨e, ?_⟩
    rw [← h]
    unfold Parse
    rw [h2 rfl]
    rfl
  | cons c cs =>
    refine ⟨c.error, ?_⟩
    have h3 := h3 c cs rfl
    unfold Parse
    generalize parseFiles env (o.withStop true) (env.dir filename) fuel (initPS filename) [] = r at h3
    obtain ⟨r, ps⟩ := r
    simp only at h3
    subst h3
    rfl

/-- Two errors: the first is returned. -/
example : Parse (exEnv [(c!"/e/n", c!"user;include b;")]) 3 c!"/e/n" { exOpts with stopParsingOnError := true } =
    .err (serr c!"invalid number of arguments in \"user\" directive" c!"/e/n" 1 c!"user " c!"main") := by
  have hp : ∃ p, Parse (exEnv [(c!"/e/n", c!"user;include b;")]) 3 c!"/e/n" { exOpts with stopParsingOnError := false } = .ok p ∧
      p.errors.map (·.error) = [serr c!"invalid number of arguments in \"user\" directive" c!"/e/n" 1 c!"user " c!"main",
        serr c!"open /e/b: no such file or directory" c!"/e/n" 1 c!"include b" c!"main"] := by
    exact ⟨{ status := c!"failed"
             errors := [⟨c!"/e/n", some 1, serr c!"invalid number of arguments in \"user\" directive" c!"/e/n" 1 c!"user " c!"main", none⟩,
               ⟨c!"/e/n", some 1, serr c!"open /e/b: no such file or directory" c!"/e/n" 1 c!"include b" c!"main", none⟩]
             config := [{ file := c!"/e/n", status := c!"failed", parsed := [dir c!"include" 1 [c!"b"]]
                          errors := [⟨some 1, serr c!"invalid number of arguments in \"user\" directive" c!"/e/n" 1 c!"user " c!"main"⟩,
                            ⟨some 1, serr c!"open /e/b: no such file or directory" c!"/e/n" 1 c!"include b" c!"main"⟩] }] }, by decide +kernel, rfl⟩
  obtain ⟨p, h1, h2⟩ := hp
  cases he : p.errors with
  | nil => rw [he] at h2; cases h2
  | cons c cs =>
    rw [he] at h2
    have h2 := List.head_eq_of_cons_eq h2
    exact (C19_first (o := exOpts) h1 he).trans (congrArg Res.err h2)

/-- C81.  With StopParsingOnError the result is the first error, in the order in which the files are read, also if without it there is no payload since a file includes
itself, cannot be opened or crashes the program later.  If there is no such error, the result is the same as without it. -/
theorem C81_stop {text : Str → Option FileData} {matching : Str → Option (List Str)} {filename : Str} {fs : List ReadFile} {e : End} {fuel : Nat}
    (ho : Collecting env { o with stopParsingOnError := false } text matching) (hf : fs.length < fuel) (hfresh : ∀ f ∈ fs, Fresh f.ctx.length)
    (hfr : ∀ f c ls, e = .crash f c ls → Fresh c.length) (h : Works env { o with stopParsingOnError := false } text matching filename fs e) :
    (∀ f l ls, errorLines fs e = (f, l) :: ls →
      ∃ c : PayloadError, Parse env fuel filename { o with stopParsingOnError := true } = .err c.error ∧ c.file = f ∧ c.line = l) ∧
    (errorLines fs e = [] → Parse env fuel filename { o with stopParsingOnError := true } = Parse env fuel filename { o with stopParsingOnError := false }) := by
  have h1 := works_errors ho hf hfresh hfr h
  obtain ⟨new, h2, h3, h4⟩ := parseFiles_first env o (env.dir filename) fuel (initPS filename) []
  change List.map _ (parseFiles env (o.withStop false) (env.dir filename) fuel (initPS filename) []).2.payErrors = _ at h1
  rw [h2] at h1
  change List.map _ new = _ at h1
  constructor
  · intro f l ls hl
    rw [hl] at h1
    cases new with
    | nil => cases h1
    | cons c cs =>
      injection h1 with h1 _
      injection h1 with h5 h6
      refine ⟨c, ?_, h5, h6⟩
      have h4 := h4 c cs rfl
      change Parse env fuel filename (o.withStop true) = _
      unfold Parse
      generalize parseFiles env (o.withStop true) (env.dir filename) fuel (initPS filename) [] = r at h4
      obtain ⟨r, ps⟩ := r
      simp only at h4
      subst h4
      rfl
  · intro hl
    rw [hl, List.map_eq_nil_iff] at h1
    change Parse env fuel filename (o.withStop true) = Parse env fuel filename (o.withStop false)
    unfold Parse
    rw [h3 h1]
    rfl

end

example : ∃ c : PayloadError, Parse (exEnv exWorks) 3 c!"/e/n" { exOpts with stopParsingOnError := true } = .err c.error ∧ c.file = c!"/e/n" ∧ c.line = some 1 :=
  (C81_stop (o := exOpts) exWorks_collecting (by decide) exWorks_fresh (fun _ _ _ h => by cases h) exWorks_works).1 _ _ [(c!"/e/a", some 1)] (by decide +kernel)

end Verif
