import Verif.Proofs.ParseTop
/-!
# When `Parse` gives the same result in two environments
-/
namespace Verif

/-- What the parser learns from opening a file: the error, or the runes. -/
def openView : Except GoErr FileData → Except GoErr (List Char)
  | .error e => .error e
  | .ok d => .ok d.runes

theorem parse_congr {env env' : Env} {o : ParseOptions} {configDir file : Str}
    (h : ∀ ctx t toks ps, step env o configDir file ctx t toks ps = step env' o configDir file ctx t toks ps)
    (fuel : Nat) (ctx : Ctx) (toks : List Tok) (parsed : List Directive) (ps : PS) :
    parse env o configDir file fuel ctx toks parsed ps = parse env' o configDir file fuel ctx toks parsed ps := by
  induction fuel generalizing ctx toks parsed ps with
  | zero => rfl
  | succ fuel ih =>
    cases toks with
    | nil => rfl
    | cons t toks =>
      rw [parse_step, parse_step, h]
      cases step env' o configDir file ctx t toks ps with
      | stop => rfl
      | fail => rfl
      | next => exact ih ..
      | block => simp only [ih]

theorem step_congr {env env' : Env} {o : ParseOptions} {configDir file : Str}
    (h : ∀ ctx stmt ps, doInclude env o configDir file ctx stmt ps = doInclude env' o configDir file ctx stmt ps)
    (ctx : Ctx) (t : Tok) (toks : List Tok) (ps : PS) :
    step env o configDir file ctx t toks ps = step env' o configDir file ctx t toks ps := by
  unfold step stepStmt
  simp only [h]

theorem parseFiles_congr {env env' : Env} {o : ParseOptions} {configDir : Str}
    (h : ∀ file ctx stmt ps, doInclude env o configDir file ctx stmt ps = doInclude env' o configDir file ctx stmt ps)
    (ho : ∀ n f, openView (env.openFile n f) = openView (env'.openFile n f))
    (fuel : Nat) (ps : PS) (configs : List Config) :
    parseFiles env o configDir fuel ps configs = parseFiles env' o configDir fuel ps configs := by
  induction fuel generalizing ps configs with
  | zero => rfl
  | succ fuel ih =>
    unfold parseFiles
    cases ps.includes with
    | nil => rfl
    | cons incl rest =>
      simp only
      have ho := ho ps.opens incl.path
      cases h1 : env.openFile ps.opens incl.path with
      | error e =>
        rw [h1] at ho
        cases h2 : env'.openFile ps.opens incl.path with
        | error e' => rw [h2] at ho; cases ho; rfl
        | ok d => rw [h2] at ho; cases ho
      | ok d =>
        rw [h1] at ho
        cases h2 : env'.openFile ps.opens incl.path with
        | error e' => rw [h2] at ho; cases ho
        | ok d' =>
          rw [h2] at ho
          have hd : d.runes = d'.runes := by simpa [openView] using ho
          simp only [hd, parse_congr (step_congr (h incl.path)), ih]

theorem Parse_congr {env env' : Env} {fuel : Nat} {filename : Str} {o : ParseOptions}
    (h : ∀ file ctx stmt ps, doInclude env o (env.dir filename) file ctx stmt ps = doInclude env' o (env.dir filename) file ctx stmt ps)
    (ho : ∀ n f, openView (env.openFile n f) = openView (env'.openFile n f)) (hd : env.dir = env'.dir) (hm : env.mapOrder = env'.mapOrder) :
    Parse env fuel filename o = Parse env' fuel filename o := by
  unfold Parse
  rw [parseFiles_congr h ho, hd]
  unfold isAcyclic
  rw [hm]

end Verif
