import Verif.Proofs.ParseTop
/-!
# Runs with different options that give related trees

If the rounds of the parser under two sets of options agree up to a map of the directives, so do the payloads.
-/
namespace Verif
open Spec

/-- The image of a result. -/
def Res.map {α β : Type} (f : α → β) : Res α → Res β
  | .ok a => .ok (f a)
  | .err e => .err e
  | .panic => .panic
  | .fuel => .fuel

theorem Res.map_ok {α β : Type} (f : α → β) (a : α) : (Res.ok a).map f = .ok (f a) := rfl
theorem Res.map_err {α β : Type} (f : α → β) (e : GoErr) : (Res.err e : Res α).map f = .err e := rfl

/-- Two rounds agree up to `Φ`; `fn1`, `fn2` are the file names given to comments. -/
inductive StepSim (Φ : List Directive → List Directive) (fn1 fn2 : Str) : Step → Step → Prop
  | stop (toks ps) : StepSim Φ fn1 fn2 (.stop toks ps) (.stop toks ps)
  | fail (e toks ps) : StepSim Φ fn1 fn2 (.fail e toks ps) (.fail e toks ps)
  | next (new toks ps) : StepSim Φ fn1 fn2 (.next new toks ps) (.next (Φ new) toks ps)
  | block (stmt1 stmt2 : Directive) (c1 c2 toks ps) : stmt1.directive = stmt2.directive →
      (∀ b, Φ ([{ stmt1 with block := some b }] ++ commentDirectives stmt1.line fn1 c1) =
        [{ stmt2 with block := some (Φ b) }] ++ commentDirectives stmt2.line fn2 c2) →
      StepSim Φ fn1 fn2 (.block stmt1 c1 toks ps) (.block stmt2 c2 toks ps)

/-- Two sets of options under which all rounds agree up to a map of the directives of each file. -/
structure Sim (env : Env) (o1 o2 : ParseOptions) (Φ : Str → List Directive → List Directive) : Prop where
  nil : ∀ f, Φ f [] = []
  append : ∀ f a b, Φ f (a ++ b) = Φ f a ++ Φ f b
  stop : o1.stopParsingOnError = o2.stopParsingOnError
  lexers : o1.lexers = o2.lexers
  callback : o1.errorCallback = o2.errorCallback
  step : ∀ configDir file ctx t toks ps, StepSim (Φ file) (if o1.combineConfigs then file else []) (if o2.combineConfigs then file else [])
    (step env o1 configDir file ctx t toks ps) (step env o2 configDir file ctx t toks ps)

theorem enterBlockCtx_congr {stmt1 stmt2 : Directive} (h : stmt1.directive = stmt2.directive) (ctx : Ctx) (ps : PS) :
    enterBlockCtx stmt1 ctx ps = enterBlockCtx stmt2 ctx ps := by
  unfold enterBlockCtx; rw [h]

theorem Sim.parse {env : Env} {o1 o2 : ParseOptions} {Φ : Str → List Directive → List Directive} (h : Sim env o1 o2 Φ) (configDir file : Str)
    (fuel : Nat) (ctx : Ctx) (toks : List Tok) (parsed : List Directive) (ps : PS) :
    parse env o2 configDir file fuel ctx toks (Φ file parsed) ps =
      ((parse env o1 configDir file fuel ctx toks parsed ps).1.map (Φ file), (parse env o1 configDir file fuel ctx toks parsed ps).2) := by
  induction fuel generalizing ctx toks parsed ps with
  | zero => rfl
  | succ fuel ih =>
    cases toks with
    | nil => rfl
    | cons t toks =>
      rw [parse_step, parse_step]
      have hs := h.step configDir file ctx t toks ps
      generalize Verif.step env o1 configDir file ctx t toks ps = s1 at hs ⊢
      generalize Verif.step env o2 configDir file ctx t toks ps = s2 at hs ⊢
      cases hs with
      | stop toks ps => rfl
      | fail e toks ps => cases e <;> rfl
      | next new toks ps =>
        simp only
        rw [← h.append, ih]
      | block stmt1 stmt2 c1 c2 toks ps h1 h2 =>
        simp only
        have hb := ih (enterBlockCtx stmt1 ctx ps).1 toks [] (enterBlockCtx stmt1 ctx ps).2
        rw [h.nil] at hb
        rw [← enterBlockCtx_congr h1, hb]
        generalize Verif.parse env o1 configDir file fuel (enterBlockCtx stmt1 ctx ps).1 toks [] (enterBlockCtx stmt1 ctx ps).2 = r
        obtain ⟨r, toks', ps'⟩ := r
        cases r with
        | ok b =>
          simp only [Res.map_ok, Res.map_err]
          rw [List.append_assoc, List.append_assoc, ← h2, ← h.append, ih]
        | err => rfl
        | panic => rfl
        | fuel => rfl

theorem Sim.parseFiles {env : Env} {o1 o2 : ParseOptions} {Φ : Str → List Directive → List Directive} (h : Sim env o1 o2 Φ) (configDir : Str)
    (fuel : Nat) (ps : PS) (configs : List Config) :
    parseFiles env o2 configDir fuel ps (configs.map fun c => { c with parsed := Φ c.file c.parsed }) =
      ((parseFiles env o1 configDir fuel ps configs).1.map (List.map fun c => { c with parsed := Φ c.file c.parsed }),
        (parseFiles env o1 configDir fuel ps configs).2) := by
  induction fuel generalizing ps configs with
  | zero => rfl
  | succ fuel ih =>
    unfold Verif.parseFiles
    cases hi : ps.includes with
    | nil => rfl
    | cons incl rest =>
      simp only
      cases ho : env.openFile ps.opens incl.path with
      | error e => rfl
      | ok data =>
        simp only
        rw [← h.lexers]
        have hp := h.parse configDir incl.path ((lexWith (extLexersOf o1.lexers) data.runes).length + 1) incl.ctx
          (lexWith (extLexersOf o1.lexers) data.runes) []
          { ps with includes := rest, opens := ps.opens + 1, cfgStatus := c!"ok", cfgErrors := [] }
        rw [h.nil] at hp
        rw [hp]
        generalize Verif.parse env o1 configDir incl.path ((lexWith (extLexersOf o1.lexers) data.runes).length + 1) incl.ctx
          (lexWith (extLexersOf o1.lexers) data.runes) []
          { ps with includes := rest, opens := ps.opens + 1, cfgStatus := c!"ok", cfgErrors := [] } = r
        obtain ⟨r, toks', ps'⟩ := r
        cases r with
        | ok b =>
          simp only [Res.map_ok, Res.map_err]
          rw [← ih, List.map_append]
          rfl
        | err e =>
          simp only [Res.map_ok, Res.map_err]
          rw [← h.stop]
          cases o1.stopParsingOnError with
          | true => rfl
          | false =>
            simp only [Bool.false_eq_true, if_false]
            rw [← ih, List.map_append]
            have : handleError o2 incl.path ps' e = handleError o1 incl.path ps' e := by unfold handleError; rw [h.callback]
            rw [this, List.map_singleton, h.nil]
        | panic => rfl
        | fuel => rfl

/-- `Parse` before combining. -/
def parseRaw (env : Env) (fuel : Nat) (filename : Str) (o : ParseOptions) : Res Payload :=
  match parseFiles env o (env.dir filename) fuel (initPS filename) [] with
  | (.ok configs, ps) => if isAcyclic env ps then .err cycleError else .ok (rawPayload ps configs)
  | (.err e, _) => .err e
  | (.panic, _) => .panic
  | (.fuel, _) => .fuel

theorem Parse_raw (env : Env) (fuel : Nat) (filename : Str) (o : ParseOptions) :
    Parse env fuel filename o =
      (parseRaw env fuel filename o).bind fun p => if o.combineConfigs then combined (p.config.length + 1) p else .ok p := by
  unfold Parse parseRaw
  generalize parseFiles env o (env.dir filename) fuel (initPS filename) [] = r
  obtain ⟨r, ps⟩ := r
  cases r with
  | ok cs =>
    simp only
    split <;> rfl
  | err => rfl
  | panic => rfl
  | fuel => rfl

theorem Sim.raw {env : Env} {o1 o2 : ParseOptions} {Φ : Str → List Directive → List Directive} (h : Sim env o1 o2 Φ) (fuel : Nat) (filename : Str) :
    parseRaw env fuel filename o2 =
      (parseRaw env fuel filename o1).map fun p => { p with config := p.config.map fun c => { c with parsed := Φ c.file c.parsed } } := by
  unfold parseRaw
  have := h.parseFiles (env.dir filename) fuel (initPS filename) []
  rw [List.map_nil] at this
  rw [this]
  generalize Verif.parseFiles env o1 (env.dir filename) fuel (initPS filename) [] = r
  obtain ⟨r, ps⟩ := r
  cases r with
  | ok cs =>
    simp only [Res.map_ok, Res.map_err]
    split <;> rfl
  | err => rfl
  | panic => rfl
  | fuel => rfl

end Verif
