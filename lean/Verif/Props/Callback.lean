import Verif.Proofs.ParseTop
import Verif.Props.Ex
/-!
# C18: the error callback influences nothing but its own results
-/
namespace Verif
open Spec

/-- The error without what the callback made of it. -/
def Spec.withoutCallback (e : PayloadError) : PayloadError := { e with callback := none }

/-- The payload without the results of the callback. -/
def Spec.withoutCallbacks (p : Payload) : Payload := { p with errors := p.errors.map withoutCallback }

/-- The state of a parser that has no callback. -/
def PS.quiet (ps : PS) : PS := { ps with payErrors := ps.payErrors.map withoutCallback, calls := 0 }

def ParseOptions.quiet (o : ParseOptions) : ParseOptions := { o with errorCallback := none }

def Step.quiet : Step → Step
  | .stop toks ps => .stop toks ps.quiet
  | .fail e toks ps => .fail e toks ps.quiet
  | .next new toks ps => .next new toks ps.quiet
  | .block stmt comments toks ps => .block stmt comments toks ps.quiet

theorem handleError_callback (o : ParseOptions) (file : Str) (ps : PS) (e : GoErr) : handleError o.quiet file ps.quiet e = (handleError o file ps e).quiet := by
  simp [handleError, PS.quiet, ParseOptions.quiet, withoutCallback]

theorem addInclude_callback (file : Str) (ctx : Ctx) (stmt : Directive) (ps : PS) (f : Str) :
    addInclude file ctx stmt ps.quiet f = ((addInclude file ctx stmt ps f).1, (addInclude file ctx stmt ps f).2.quiet) := by
  unfold addInclude
  have h : ps.quiet.included = ps.included := rfl
  rw [h]
  cases ps.included.lookup f <;> rfl

theorem addIncludes_callback (file : Str) (ctx : Ctx) (names : List Str) : ∀ (stmt : Directive) (ps : PS),
    addIncludes file ctx stmt ps.quiet names = ((addIncludes file ctx stmt ps names).1, (addIncludes file ctx stmt ps names).2.quiet) := by
  induction names with
  | nil => intro stmt ps; rfl
  | cons n ns ih =>
    intro stmt ps
    rw [addIncludes, addIncludes, addInclude_callback]
    exact ih _ _

theorem doInclude_callback (env : Env) (o : ParseOptions) (configDir file : Str) (ctx : Ctx) (stmt : Directive) (ps : PS) :
    doInclude env o.quiet configDir file ctx stmt ps.quiet =
      ((doInclude env o configDir file ctx stmt ps).1, (doInclude env o configDir file ctx stmt ps).2.quiet) := by
  unfold doInclude
  have h1 : o.quiet.singleFile = o.singleFile := rfl
  have h2 : o.quiet.stopParsingOnError = o.stopParsingOnError := rfl
  have h3 : ps.quiet.globs = ps.globs := rfl
  have h4 : ps.quiet.opens = ps.opens := rfl
  rw [h1, h2, h3, h4]
  split
  · cases stmt.args with
    | nil => rfl
    | cons y as =>
      simp only
      generalize (if (!env.isAbs y) = true then env.join configDir y else y) = pat
      split
      · cases env.glob ps.globs pat with
        | error e => rfl
        | ok names =>
          exact congrArg (fun r : Directive × PS => ((Res.ok r.1 : Res Directive), r.2)) (addIncludes_callback file ctx (sortStrings names) stmt { ps with globs := ps.globs + 1 })
      · cases env.openFile ps.opens pat with
        | error e =>
          simp only
          split
          · exact congrArg (fun p => (Res.ok stmt, p)) (handleError_callback o file { ps with opens := ps.opens + 1 } _)
          · rfl
        | ok data => exact congrArg (fun r : Directive × PS => ((Res.ok r.1 : Res Directive), r.2)) (addIncludes_callback file ctx [pat] stmt { ps with opens := ps.opens + 1 })
  · rfl

theorem enterBlockCtx_callback (stmt : Directive) (ctx : Ctx) (ps : PS) :
    enterBlockCtx stmt ctx ps.quiet = ((enterBlockCtx stmt ctx ps).1, (enterBlockCtx stmt ctx ps).2.quiet) := by
  unfold enterBlockCtx
  split
  · rfl
  · split <;> rfl

theorem step_callback (env : Env) (o : ParseOptions) (configDir file : Str) (ctx : Ctx) (t : Tok) (toks : List Tok) (ps : PS) :
    step env o.quiet configDir file ctx t toks ps.quiet = (step env o configDir file ctx t toks ps).quiet := by
  unfold step
  cases t.error with
  | some e => rfl
  | none =>
    simp only
    split
    · rfl
    split
    · rfl
    have hr : o.quiet.parseComments = o.parseComments := rfl
    rw [hr]
    cases readArgs o.parseComments [] [] toks with
    | none => rfl
    | some r =>
      obtain ⟨args, comments, term, rest⟩ := r
      simp only
      have hb : baseStmt o.quiet file t args = baseStmt o file t args := rfl
      rw [hb]
      generalize baseStmt o file t args = stmt
      unfold stepStmt
      cases mapCtx ctx.vals with
      | some m =>
        simp only
        have hs : o.quiet.stopParsingOnError = o.stopParsingOnError := rfl
        rw [hs]
        cases analyzeMapBody file stmt term.value m with
        | some err =>
          simp only
          split
          · rfl
          · rw [handleError_callback]; rfl
        | none => rfl
      | none =>
        simp only
        have hi : o.quiet.ignoreDirectives = o.ignoreDirectives := rfl
        have hs : o.quiet.stopParsingOnError = o.stopParsingOnError := rfl
        have ha : analyze file stmt term.value ctx.vals o.quiet = analyze file stmt term.value ctx.vals o := rfl
        have hc : o.quiet.combineConfigs = o.combineConfigs := rfl
        rw [hi, hs, ha, hc]
        split
        · rfl
        cases analyze file stmt term.value ctx.vals o with
        | some err =>
          simp only [handleError_callback]
          split
          · split
            · split <;> rfl
            · rfl
          · rfl
        | none =>
          simp only
          cases prepIf stmt with
          | none => rfl
          | some s1 =>
            simp only
            rw [doInclude_callback]
            generalize doInclude env o configDir file ctx s1 ps = r
            obtain ⟨r1, r2⟩ := r
            cases r1 with
            | ok d => simp only; split <;> rfl
            | err e => rfl
            | panic => rfl
            | fuel => rfl

theorem parse_callback (env : Env) (o : ParseOptions) (configDir file : Str) (fuel : Nat) : ∀ (ctx : Ctx) (toks : List Tok) (parsed : List Directive) (ps : PS),
    parse env o.quiet configDir file fuel ctx toks parsed ps.quiet =
      ((parse env o configDir file fuel ctx toks parsed ps).1, (parse env o configDir file fuel ctx toks parsed ps).2.1, (parse env o configDir file fuel ctx toks parsed ps).2.2.quiet) := by
  induction fuel with
  | zero => intro ctx toks parsed ps; rfl
  | succ fuel ih =>
    intro ctx toks parsed ps
    cases toks with
    | nil => rfl
    | cons t toks =>
      rw [parse_step, parse_step, step_callback]
      generalize step env o configDir file ctx t toks ps = s
      cases s with
      | stop toks' ps' => rfl
      | fail e toks' ps' => rfl
      | next new toks' ps' => exact ih _ _ _ _
      | block stmt comments toks' ps' =>
        simp only [Step.quiet]
        rw [enterBlockCtx_callback, ih]
        generalize parse env o configDir file fuel (enterBlockCtx stmt ctx ps').1 toks' [] (enterBlockCtx stmt ctx ps').2 = r
        obtain ⟨r1, r2, r3⟩ := r
        cases r1 with
        | ok bl => exact ih _ _ _ _
        | err e => rfl
        | panic => rfl
        | fuel => rfl

theorem parseFiles_callback (env : Env) (o : ParseOptions) (configDir : Str) (fuel : Nat) : ∀ (ps : PS) (cs : List Config),
    parseFiles env o.quiet configDir fuel ps.quiet cs = ((parseFiles env o configDir fuel ps cs).1, (parseFiles env o configDir fuel ps cs).2.quiet) := by
  induction fuel with
  | zero => intro ps cs; rfl
  | succ fuel ih =>
    intro ps cs
    rw [parseFiles.eq_def, parseFiles.eq_def]
    simp only
    have h1 : ps.quiet.includes = ps.includes := rfl
    have h2 : ps.quiet.opens = ps.opens := rfl
    rw [h1, h2]
    cases ps.includes with
    | nil => rfl
    | cons incl rest =>
      simp only
      cases env.openFile ps.opens incl.path with
      | error e => rfl
      | ok data =>
        simp only
        have hp := parse_callback env o configDir incl.path ((lexWith (extLexersOf o.lexers) data.runes).length + 1) incl.ctx (lexWith (extLexersOf o.lexers) data.runes) []
          { ps with includes := rest, opens := ps.opens + 1, cfgStatus := c!"ok", cfgErrors := [] }
        have hl : o.quiet.lexers = o.lexers := rfl
        have hs : o.quiet.stopParsingOnError = o.stopParsingOnError := rfl
        rw [hl, hs]
        simp only [PS.quiet] at hp
        simp only [PS.quiet, hp]
        generalize parse env o configDir incl.path ((lexWith (extLexersOf o.lexers) data.runes).length + 1) incl.ctx (lexWith (extLexersOf o.lexers) data.runes) []
          { ps with includes := rest, opens := ps.opens + 1, cfgStatus := c!"ok", cfgErrors := [] } = r
        obtain ⟨r1, r2, r3⟩ := r
        cases r1 with
        | ok ds => exact ih _ _
        | err e =>
          simp only
          split
          · rfl
          · have := handleError_callback o incl.path r3 e
            simp only [PS.quiet] at this
            rw [this]
            exact ih _ _
        | panic => rfl
        | fuel => rfl

/-- C18.  A callback influences nothing but its own results: without it Parse gives the same result (the same payload but for the results of the callback, the same error, or the same
panic). -/
theorem C18_nothing_else (env : Env) (fuel : Nat) (filename : Str) (o : ParseOptions) :
    Parse env fuel filename { o with errorCallback := none } = (Parse env fuel filename o).bind fun p => .ok (withoutCallbacks p) := by
  have h := parseFiles_callback env o (env.dir filename) fuel (initPS filename) []
  have hi : (initPS filename).quiet = initPS filename := rfl
  rw [hi] at h
  have ho : o.quiet = { o with errorCallback := none } := rfl
  unfold Parse
  rw [← ho, h]
  generalize parseFiles env o (env.dir filename) fuel (initPS filename) [] = r
  obtain ⟨r1, ps⟩ := r
  cases r1 with
  | ok cs =>
    have ha : isAcyclic env ps.quiet = isAcyclic env ps := rfl
    have hc : o.quiet.combineConfigs = o.combineConfigs := rfl
    simp only [ha, hc]
    split
    · rfl
    · split
      · unfold combined
        simp only
        cases cs with
        | nil => rfl
        | cons c0 cs =>
          simp only
          cases performIncludes (c0 :: cs) ((c0 :: cs).length + 1) c0.file c0.parsed <;> rfl
      · rfl
  | err e => rfl
  | panic => rfl
  | fuel => rfl

/-- C18.  Two callbacks: the results differ at most in what they made of the errors. -/
theorem C18_two (env : Env) (fuel : Nat) (filename : Str) (o : ParseOptions) (cb cb' : Option (Nat → GoErr → Str)) :
    (Parse env fuel filename { o with errorCallback := cb }).bind (fun p => .ok (withoutCallbacks p)) =
      (Parse env fuel filename { o with errorCallback := cb' }).bind (fun p => .ok (withoutCallbacks p)) := by
  rw [← C18_nothing_else, ← C18_nothing_else]

example : Parse (exEnv [(c!"/a", c!"user;\nserver{}")]) 2 c!"/a" { exOpts with errorCallback := none } =
    (Parse (exEnv [(c!"/a", c!"user;\nserver{}")]) 2 c!"/a" { exOpts with errorCallback := some fun n e => decimal n ++ e.error }).bind fun p => .ok (withoutCallbacks p) :=
  C18_nothing_else _ _ _ { exOpts with errorCallback := some fun n e => decimal n ++ e.error }

end Verif
