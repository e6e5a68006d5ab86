import Verif.Proofs.Run
/-!
# The worklist of files as a relation, and invariants of the parser state
-/
namespace Verif

/-- parse.go:162-181: the state in which the file at the head of the worklist is parsed. -/
def startFile (ps : PS) (rest : List FileCtx) : PS :=
  { ps with includes := rest, opens := ps.opens + 1, cfgStatus := c!"ok", cfgErrors := [] }

/-- The tokens of a file. -/
def fileToks (o : ParseOptions) (data : FileData) : List Tok := lexWith (extLexersOf o.lexers) data.runes

/-- parse.go:174-207: the config of a file, with the status and errors of the state after it. -/
def fileConfig (file : Str) (ps : PS) (parsed : List Directive) : Config :=
  { file := file, status := ps.cfgStatus, errors := ps.cfgErrors, parsed := parsed }

/-- A run of the worklist loop that ends; `cs` are the configs it adds. -/
inductive FilesOk (env : Env) (o : ParseOptions) (configDir : Str) : PS → List Config → PS → Prop where
  | nil (ps) : ps.includes = [] → FilesOk env o configDir ps [] ps
  | ok (ps incl rest data ds toks' ps1 cs ps') : ps.includes = incl :: rest → env.openFile ps.opens incl.path = .ok data →
      RunOk env o configDir incl.path incl.ctx (fileToks o data) (startFile ps rest) ds toks' ps1 →
      FilesOk env o configDir ps1 cs ps' →
      FilesOk env o configDir ps (fileConfig incl.path ps1 ds :: cs) ps'
  | bad (ps incl rest data e toks' ps1 cs ps') : ps.includes = incl :: rest → env.openFile ps.opens incl.path = .ok data →
      RunFail env o configDir incl.path incl.ctx (fileToks o data) (startFile ps rest) (some e) toks' ps1 →
      o.stopParsingOnError = false →
      FilesOk env o configDir (handleError o incl.path ps1 e) cs ps' →
      FilesOk env o configDir ps (fileConfig incl.path (handleError o incl.path ps1 e) [] :: cs) ps'

/-- A run of the worklist loop that fails (`none` is a panic). -/
inductive FilesFail (env : Env) (o : ParseOptions) (configDir : Str) : PS → Option GoErr → PS → Prop where
  | openErr (ps incl rest e) : ps.includes = incl :: rest → env.openFile ps.opens incl.path = .error e →
      FilesFail env o configDir ps (some e) { ps with includes := rest, opens := ps.opens + 1 }
  | stop (ps incl rest data e toks' ps1) : ps.includes = incl :: rest → env.openFile ps.opens incl.path = .ok data →
      RunFail env o configDir incl.path incl.ctx (fileToks o data) (startFile ps rest) (some e) toks' ps1 →
      o.stopParsingOnError = true → FilesFail env o configDir ps (some e) ps1
  | panic (ps incl rest data toks' ps1) : ps.includes = incl :: rest → env.openFile ps.opens incl.path = .ok data →
      RunFail env o configDir incl.path incl.ctx (fileToks o data) (startFile ps rest) none toks' ps1 →
      FilesFail env o configDir ps none ps1
  | ok (ps incl rest data ds toks' ps1 e ps') : ps.includes = incl :: rest → env.openFile ps.opens incl.path = .ok data →
      RunOk env o configDir incl.path incl.ctx (fileToks o data) (startFile ps rest) ds toks' ps1 →
      FilesFail env o configDir ps1 e ps' → FilesFail env o configDir ps e ps'
  | bad (ps incl rest data e1 toks' ps1 e ps') : ps.includes = incl :: rest → env.openFile ps.opens incl.path = .ok data →
      RunFail env o configDir incl.path incl.ctx (fileToks o data) (startFile ps rest) (some e1) toks' ps1 →
      o.stopParsingOnError = false →
      FilesFail env o configDir (handleError o incl.path ps1 e1) e ps' → FilesFail env o configDir ps e ps'

/-- The loop parses `n` files without ending, and gets to the last state. -/
inductive FilesMore (env : Env) (o : ParseOptions) (configDir : Str) : Nat → PS → PS → Prop where
  | zero (ps) : FilesMore env o configDir 0 ps ps
  | ok (n ps incl rest data ds toks' ps1 ps') : ps.includes = incl :: rest → env.openFile ps.opens incl.path = .ok data →
      RunOk env o configDir incl.path incl.ctx (fileToks o data) (startFile ps rest) ds toks' ps1 →
      FilesMore env o configDir n ps1 ps' → FilesMore env o configDir (n + 1) ps ps'
  | bad (n ps incl rest data e toks' ps1 ps') : ps.includes = incl :: rest → env.openFile ps.opens incl.path = .ok data →
      RunFail env o configDir incl.path incl.ctx (fileToks o data) (startFile ps rest) (some e) toks' ps1 →
      o.stopParsingOnError = false →
      FilesMore env o configDir n (handleError o incl.path ps1 e) ps' → FilesMore env o configDir (n + 1) ps ps'

/-- `parseFiles` ends with the result of a run, or has used up its fuel by parsing that many files. -/
theorem parseFiles_run (env : Env) (o : ParseOptions) (configDir : Str) (fuel : Nat) (ps : PS) (configs : List Config) :
    (∃ cs ps', FilesOk env o configDir ps cs ps' ∧ parseFiles env o configDir fuel ps configs = (.ok (configs ++ cs), ps')) ∨
    (∃ e ps', FilesFail env o configDir ps e ps' ∧ parseFiles env o configDir fuel ps configs = (failRes e, ps')) ∨
    (∃ ps', FilesMore env o configDir fuel ps ps' ∧ parseFiles env o configDir fuel ps configs = (.fuel, ps')) := by
  induction fuel generalizing ps configs with
  | zero => exact Or.inr (Or.inr ⟨ps, .zero ps, rfl⟩)
  | succ fuel ih =>
    unfold parseFiles
    cases hi : ps.includes with
    | nil => exact Or.inl ⟨[], ps, .nil ps hi, by simp⟩
    | cons incl rest =>
      simp only
      cases ho : env.openFile ps.opens incl.path with
      | error e => exact Or.inr (Or.inl ⟨some e, _, .openErr ps incl rest e hi ho, rfl⟩)
      | ok data =>
        simp only
        change _ ∨ _ ∨ _
        rcases parse_file env o configDir incl.path incl.ctx (fileToks o data) (startFile ps rest) with
          ⟨ds, toks', ps1, hr, hp⟩ | ⟨e, toks', ps1, hr, hp⟩
        · unfold fileToks startFile at hp
          simp only [hp]
          rcases ih ps1 (configs ++ [fileConfig incl.path ps1 ds]) with
            ⟨cs, ps', h1, h2⟩ | ⟨e, ps', h1, h2⟩ | ⟨ps', h1, h2⟩
          · exact Or.inl ⟨_, ps', .ok _ _ _ _ _ _ _ _ _ hi ho hr h1, h2.trans (by simp)⟩
          · exact Or.inr (Or.inl ⟨e, ps', .ok _ _ _ _ _ _ _ _ _ hi ho hr h1, h2⟩)
          · exact Or.inr (Or.inr ⟨ps', .ok _ _ _ _ _ _ _ _ _ hi ho hr h1, h2⟩)
        · unfold fileToks startFile at hp
          cases e with
          | none =>
            simp only [hp, failRes]
            exact Or.inr (Or.inl ⟨none, ps1, .panic _ _ _ _ _ _ hi ho hr, rfl⟩)
          | some e =>
            simp only [hp, failRes]
            cases hs : o.stopParsingOnError with
            | true => exact Or.inr (Or.inl ⟨some e, ps1, .stop _ _ _ _ _ _ _ hi ho hr hs, rfl⟩)
            | false =>
              simp only [Bool.false_eq_true, if_false]
              rcases ih (handleError o incl.path ps1 e) (configs ++ [fileConfig incl.path (handleError o incl.path ps1 e) []]) with
                ⟨cs, ps', h1, h2⟩ | ⟨e, ps', h1, h2⟩ | ⟨ps', h1, h2⟩
              · exact Or.inl ⟨_, ps', .bad _ _ _ _ _ _ _ _ _ hi ho hr hs h1, h2.trans (by simp)⟩
              · exact Or.inr (Or.inl ⟨e, ps', .bad _ _ _ _ _ _ _ _ _ hi ho hr hs h1, h2⟩)
              · exact Or.inr (Or.inr ⟨ps', .bad _ _ _ _ _ _ _ _ _ hi ho hr hs h1, h2⟩)

/-! ## Relations between the states before and after -/

/-- A relation on states that holds for each elementary change made while parsing `file`. -/
structure StateRel (o : ParseOptions) (file : Str) (R : PS → PS → Prop) : Prop where
  refl : ∀ ps, R ps ps
  trans : ∀ {a b c}, R a b → R b c → R a c
  err : ∀ ps e, R ps (handleError o file ps e)
  opens : ∀ ps : PS, R ps { ps with opens := ps.opens + 1 }
  globs : ∀ ps : PS, R ps { ps with globs := ps.globs + 1 }
  add : ∀ ctx stmt ps f, R ps (addInclude file ctx stmt ps f).2
  enter : ∀ stmt ctx ps, R ps (enterBlockCtx stmt ctx ps).2

theorem StateRel.addIncludes {o : ParseOptions} {file : Str} {R : PS → PS → Prop} (h : StateRel o file R) (ctx : Ctx) (stmt : Directive)
    (ps : PS) (names : List Str) : R ps (addIncludes file ctx stmt ps names).2 := by
  induction names generalizing stmt ps with
  | nil => exact h.refl ps
  | cons f fs ih => exact h.trans (h.add ctx stmt ps f) (ih _ _)

theorem StateRel.doInclude {o : ParseOptions} {file : Str} {R : PS → PS → Prop} (h : StateRel o file R) (env : Env) (configDir : Str)
    (ctx : Ctx) (stmt : Directive) (ps : PS) : R ps (doInclude env o configDir file ctx stmt ps).2 := by
  have hc := doInclude_inclR env o configDir file ctx stmt ps
  generalize Verif.doInclude env o configDir file ctx stmt ps = r at hc
  cases hc with
  | other => exact h.refl ps
  | noArgs => exact h.refl ps
  | globErr => exact h.globs ps
  | globOk => exact h.trans (h.globs ps) (h.addIncludes ..)
  | openBad => exact h.trans (h.opens ps) (h.err _ _)
  | openFail => exact h.opens ps
  | openOk => exact h.trans (h.opens ps) (h.addIncludes ..)

/-- The state after a round. -/
def Step.ps : Step → PS
  | .stop _ ps => ps
  | .fail _ _ ps => ps
  | .next _ _ ps => ps
  | .block _ _ _ ps => ps

theorem StateRel.step {o : ParseOptions} {file : Str} {R : PS → PS → Prop} (h : StateRel o file R) (env : Env) (configDir : Str)
    (ctx : Ctx) (t : Tok) (toks : List Tok) (ps : PS) : R ps (step env o configDir file ctx t toks ps).ps := by
  have hc := step_cases env o configDir file ctx t toks ps
  generalize Verif.step env o configDir file ctx t toks ps = s at hc
  have hd : ∀ {stmt r ps'}, Verif.doInclude env o configDir file ctx stmt ps = (r, ps') → R ps ps' := by
    intro stmt r ps' hd
    have := h.doInclude env configDir ctx stmt ps
    rw [hd] at this; exact this
  cases hc with
  | tokErr | close | comment | premature | mapFail | mapOk | ignored | rejectFail | panic => exact h.refl ps
  | mapBad | rejectSkip | rejectStop | reject => exact h.err ps _
  | inclFail _ _ _ _ _ _ _ _ _ _ _ _ h => exact hd h
  | simple _ _ _ _ _ _ _ _ _ _ _ _ h => exact hd h
  | block _ _ _ _ _ _ _ _ _ _ _ _ h => exact hd h

theorem StateRel.runOk {o : ParseOptions} {file : Str} {R : PS → PS → Prop} (h : StateRel o file R) {env : Env} {configDir : Str}
    {ctx : Ctx} {toks : List Tok} {ps : PS} {ds : List Directive} {toks' : List Tok} {ps' : PS}
    (hr : RunOk env o configDir file ctx toks ps ds toks' ps') : R ps ps' := by
  induction hr with
  | eof => exact h.refl _
  | stop ctx t toks ps toks' ps' hs =>
    have := h.step env configDir ctx t toks ps
    rw [hs] at this; exact this
  | next ctx t toks ps new toks1 ps1 ds toks' ps' hs _ ih =>
    have := h.step env configDir ctx t toks ps
    rw [hs] at this; exact h.trans this ih
  | block ctx t toks ps stmt comments toks1 ps1 b toks2 ps2 ds toks' ps' hs _ _ ih1 ih2 =>
    have := h.step env configDir ctx t toks ps
    rw [hs] at this
    exact h.trans this (h.trans (h.enter _ _ _) (h.trans ih1 ih2))

theorem StateRel.runFail {o : ParseOptions} {file : Str} {R : PS → PS → Prop} (h : StateRel o file R) {env : Env} {configDir : Str}
    {ctx : Ctx} {toks : List Tok} {ps : PS} {e : Option GoErr} {toks' : List Tok} {ps' : PS}
    (hr : RunFail env o configDir file ctx toks ps e toks' ps') : R ps ps' := by
  induction hr with
  | fail ctx t toks ps e toks' ps' hs =>
    have := h.step env configDir ctx t toks ps
    rw [hs] at this; exact this
  | next ctx t toks ps new toks1 ps1 e toks' ps' hs _ ih =>
    have := h.step env configDir ctx t toks ps
    rw [hs] at this; exact h.trans this ih
  | inside ctx t toks ps stmt comments toks1 ps1 e toks' ps' hs _ ih =>
    have := h.step env configDir ctx t toks ps
    rw [hs] at this
    exact h.trans this (h.trans (h.enter _ _ _) ih)
  | after ctx t toks ps stmt comments toks1 ps1 b toks2 ps2 e toks' ps' hs h1 _ ih =>
    have := h.step env configDir ctx t toks ps
    rw [hs] at this
    exact h.trans this (h.trans (h.enter _ _ _) (h.trans (h.runOk h1) ih))

end Verif
