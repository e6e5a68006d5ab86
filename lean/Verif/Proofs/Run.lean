import Verif.Model.Parse
/-!
# The parser as a relation

`step` is one round of the loop of `parse` (parse.go:217-446); `StepR` lists its cases; `RunOk` and `RunFail` are the
complete runs.  `parse_run` connects them with the model's `parse` and shows that its fuel is enough.
-/
namespace Verif

/-- parse.go:256-261 with the arguments read. -/
def baseStmt (o : ParseOptions) (file : Str) (t : Tok) (args : List Str) : Directive :=
  { directive := t.value, line := t.line, args := args, file := if o.combineConfigs then file else [] }

/-- parse.go:264-272: the directive of a comment token. -/
def commentStmt (o : ParseOptions) (file : Str) (t : Tok) : Directive :=
  { directive := c!"#", line := t.line, args := [], file := if o.combineConfigs then file else [],
    comment := some (t.value.drop 1) }

/-- The outcome of one round: return the directives so far; return an error (`none` is a panic); go on after adding
directives; parse the block of a statement and go on. -/
inductive Step where
  | stop (toks : List Tok) (ps : PS)
  | fail (e : Option GoErr) (toks : List Tok) (ps : PS)
  | next (new : List Directive) (toks : List Tok) (ps : PS)
  | block (stmt : Directive) (comments : List Str) (toks : List Tok) (ps : PS)

/-- The part of a round after the arguments have been read. -/
def stepStmt (env : Env) (o : ParseOptions) (configDir file : Str) (ctx : Ctx) (ps : PS) (stmt : Directive)
    (comments : List Str) (term : Tok) (toks : List Tok) : Step :=
  match mapCtx ctx.vals with
  | some m =>
    match analyzeMapBody file stmt term.value m with
    | some mapErr =>
      if o.stopParsingOnError then .fail (some (.parse mapErr)) toks ps
      else .next [] (skipBlock term toks) (handleError o file ps (.parse mapErr))
    | none => .next [{ stmt with isMapBlockParameter := true }] toks ps
  | none =>
    if contains o.ignoreDirectives stmt.directive then .next [] (skipBlock term toks) ps
    else
      match analyze file stmt term.value ctx.vals o with
      | some perr =>
        if !o.stopParsingOnError then
          if hasSuffix perr.what notTerminated then
            if term.value != c!"}" && !term.quoted then
              .next [] (consume 0 toks) (handleError o file ps (.parse perr))
            else .stop toks (handleError o file ps (.parse perr))
          else .next [] toks (handleError o file ps (.parse perr))
        else .fail (some (.parse perr)) toks ps
      | none =>
        match prepIf stmt with
        | none => .fail none toks ps
        | some stmt =>
          match doInclude env o configDir file ctx stmt ps with
          | (.ok stmt, ps) =>
            if term.is c!"{" then .block stmt comments toks ps
            else .next ([stmt] ++ commentDirectives stmt.line (if o.combineConfigs then file else []) comments) toks ps
          | (.err e, ps) => .fail (some e) toks ps
          | (.panic, ps) => .fail none toks ps
          | (.fuel, ps) => .fail none toks ps

/-- One round of the loop for a token. -/
def step (env : Env) (o : ParseOptions) (configDir file : Str) (ctx : Ctx) (t : Tok) (toks : List Tok) (ps : PS) : Step :=
  match t.error with
  | some e => .fail (some (tokenError file ctx.vals t e)) toks ps
  | none =>
    if t.is c!"}" then .stop toks ps
    else if t.isCommentTok then .next (if o.parseComments then [commentStmt o file t] else []) toks ps
    else
      match readArgs o.parseComments [] [] toks with
      | none => .fail (some (prematureError file ctx.vals t.line)) [] ps
      | some (args, comments, term, rest) =>
        stepStmt env o configDir file ctx ps (baseStmt o file t args) comments term rest

/-- A statement was read: its first token is a word, then come arguments up to the terminator. -/
structure Reads (o : ParseOptions) (t : Tok) (toks : List Tok) (args comments : List Str) (term : Tok) (rest : List Tok) : Prop where
  noErr : t.error = none
  notClose : t.is c!"}" = false
  notComment : t.isCommentTok = false
  read : readArgs o.parseComments [] [] toks = some (args, comments, term, rest)

/-- The cases of a round. -/
inductive StepR (env : Env) (o : ParseOptions) (configDir file : Str) (ctx : Ctx) (t : Tok) (toks : List Tok) (ps : PS) : Step → Prop where
  | tokErr (e : GoErr) : t.error = some e → StepR env o configDir file ctx t toks ps (.fail (some (tokenError file ctx.vals t e)) toks ps)
  | close : t.error = none → t.is c!"}" = true → StepR env o configDir file ctx t toks ps (.stop toks ps)
  | comment : t.error = none → t.is c!"}" = false → t.isCommentTok = true →
      StepR env o configDir file ctx t toks ps (.next (if o.parseComments then [commentStmt o file t] else []) toks ps)
  | premature : t.error = none → t.is c!"}" = false → t.isCommentTok = false → readArgs o.parseComments [] [] toks = none →
      StepR env o configDir file ctx t toks ps (.fail (some (prematureError file ctx.vals t.line)) [] ps)
  | mapFail (args comments term rest m err) : Reads o t toks args comments term rest → mapCtx ctx.vals = some m →
      analyzeMapBody file (baseStmt o file t args) term.value m = some err → o.stopParsingOnError = true →
      StepR env o configDir file ctx t toks ps (.fail (some (.parse err)) rest ps)
  | mapBad (args comments term rest m err) : Reads o t toks args comments term rest → mapCtx ctx.vals = some m →
      analyzeMapBody file (baseStmt o file t args) term.value m = some err → o.stopParsingOnError = false →
      StepR env o configDir file ctx t toks ps (.next [] (skipBlock term rest) (handleError o file ps (.parse err)))
  | mapOk (args comments term rest m) : Reads o t toks args comments term rest → mapCtx ctx.vals = some m →
      analyzeMapBody file (baseStmt o file t args) term.value m = none →
      StepR env o configDir file ctx t toks ps (.next [{ baseStmt o file t args with isMapBlockParameter := true }] rest ps)
  | ignored (args comments term rest) : Reads o t toks args comments term rest → mapCtx ctx.vals = none →
      contains o.ignoreDirectives t.value = true →
      StepR env o configDir file ctx t toks ps (.next [] (skipBlock term rest) ps)
  | rejectFail (args comments term rest err) : Reads o t toks args comments term rest → mapCtx ctx.vals = none →
      contains o.ignoreDirectives t.value = false →
      analyze file (baseStmt o file t args) term.value ctx.vals o = some err → o.stopParsingOnError = true →
      StepR env o configDir file ctx t toks ps (.fail (some (.parse err)) rest ps)
  | rejectSkip (args comments term rest err) : Reads o t toks args comments term rest → mapCtx ctx.vals = none →
      contains o.ignoreDirectives t.value = false →
      analyze file (baseStmt o file t args) term.value ctx.vals o = some err → o.stopParsingOnError = false →
      hasSuffix err.what notTerminated = true → (term.value != c!"}" && !term.quoted) = true →
      StepR env o configDir file ctx t toks ps (.next [] (consume 0 rest) (handleError o file ps (.parse err)))
  | rejectStop (args comments term rest err) : Reads o t toks args comments term rest → mapCtx ctx.vals = none →
      contains o.ignoreDirectives t.value = false →
      analyze file (baseStmt o file t args) term.value ctx.vals o = some err → o.stopParsingOnError = false →
      hasSuffix err.what notTerminated = true → (term.value != c!"}" && !term.quoted) = false →
      StepR env o configDir file ctx t toks ps (.stop rest (handleError o file ps (.parse err)))
  | reject (args comments term rest err) : Reads o t toks args comments term rest → mapCtx ctx.vals = none →
      contains o.ignoreDirectives t.value = false →
      analyze file (baseStmt o file t args) term.value ctx.vals o = some err → o.stopParsingOnError = false →
      hasSuffix err.what notTerminated = false →
      StepR env o configDir file ctx t toks ps (.next [] rest (handleError o file ps (.parse err)))
  | panic (args comments term rest) : Reads o t toks args comments term rest → mapCtx ctx.vals = none →
      contains o.ignoreDirectives t.value = false →
      analyze file (baseStmt o file t args) term.value ctx.vals o = none → prepIf (baseStmt o file t args) = none →
      StepR env o configDir file ctx t toks ps (.fail none rest ps)
  | inclFail (args comments term rest stmt e ps') : Reads o t toks args comments term rest → mapCtx ctx.vals = none →
      contains o.ignoreDirectives t.value = false →
      analyze file (baseStmt o file t args) term.value ctx.vals o = none → prepIf (baseStmt o file t args) = some stmt →
      doInclude env o configDir file ctx stmt ps = (.err e, ps') →
      StepR env o configDir file ctx t toks ps (.fail (some e) rest ps')
  | simple (args comments term rest stmt stmt' ps') : Reads o t toks args comments term rest → mapCtx ctx.vals = none →
      contains o.ignoreDirectives t.value = false →
      analyze file (baseStmt o file t args) term.value ctx.vals o = none → prepIf (baseStmt o file t args) = some stmt →
      doInclude env o configDir file ctx stmt ps = (.ok stmt', ps') → term.is c!"{" = false →
      StepR env o configDir file ctx t toks ps
        (.next ([stmt'] ++ commentDirectives stmt'.line (if o.combineConfigs then file else []) comments) rest ps')
  | block (args comments term rest stmt stmt' ps') : Reads o t toks args comments term rest → mapCtx ctx.vals = none →
      contains o.ignoreDirectives t.value = false →
      analyze file (baseStmt o file t args) term.value ctx.vals o = none → prepIf (baseStmt o file t args) = some stmt →
      doInclude env o configDir file ctx stmt ps = (.ok stmt', ps') → term.is c!"{" = true →
      StepR env o configDir file ctx t toks ps (.block stmt' comments rest ps')

/-- The name or pattern of an include directive, relative to the directory of the main file. -/
def resolve (env : Env) (configDir pattern : Str) : Str := if !env.isAbs pattern then env.join configDir pattern else pattern

/-- parse.go:359-369. -/
def includeArgsError (file : Str) (ctx : List Str) (stmt : Directive) : GoErr :=
  .parse { what := c!"invalid number of arguments in \"" ++ stmt.directive ++ c!"\" directive in " ++ file ++ c!":" ++ decimal stmt.line,
           file := some file, line := some stmt.line, statement := stmt.string, blockCtx := getLastBlock ctx }

/-- The cases of `doInclude`. -/
inductive InclR (env : Env) (o : ParseOptions) (configDir file : Str) (ctx : Ctx) (stmt : Directive) (ps : PS) : Res Directive × PS → Prop where
  | other : (!o.singleFile && stmt.directive == c!"include") = false → InclR env o configDir file ctx stmt ps (.ok stmt, ps)
  | noArgs : (!o.singleFile && stmt.directive == c!"include") = true → stmt.args = [] →
      InclR env o configDir file ctx stmt ps (.err (includeArgsError file ctx.vals stmt), ps)
  | globErr (a as e) : (!o.singleFile && stmt.directive == c!"include") = true → stmt.args = a :: as →
      hasMagic (resolve env configDir a) = true → env.glob ps.globs (resolve env configDir a) = .error e →
      InclR env o configDir file ctx stmt ps (.err e, { ps with globs := ps.globs + 1 })
  | globOk (a as names) : (!o.singleFile && stmt.directive == c!"include") = true → stmt.args = a :: as →
      hasMagic (resolve env configDir a) = true → env.glob ps.globs (resolve env configDir a) = .ok names →
      InclR env o configDir file ctx stmt ps
        (.ok (addIncludes file ctx stmt { ps with globs := ps.globs + 1 } (sortStrings names)).1,
          (addIncludes file ctx stmt { ps with globs := ps.globs + 1 } (sortStrings names)).2)
  | openBad (a as e) : (!o.singleFile && stmt.directive == c!"include") = true → stmt.args = a :: as →
      hasMagic (resolve env configDir a) = false → env.openFile ps.opens (resolve env configDir a) = .error e → o.stopParsingOnError = false →
      InclR env o configDir file ctx stmt ps
        (.ok stmt, handleError o file { ps with opens := ps.opens + 1 } (.parse (stmtError e.error file stmt (getLastBlock ctx.vals))))
  | openFail (a as e) : (!o.singleFile && stmt.directive == c!"include") = true → stmt.args = a :: as →
      hasMagic (resolve env configDir a) = false → env.openFile ps.opens (resolve env configDir a) = .error e → o.stopParsingOnError = true →
      InclR env o configDir file ctx stmt ps
        (.err (.parse (stmtError e.error file stmt (getLastBlock ctx.vals))), { ps with opens := ps.opens + 1 })
  | openOk (a as data) : (!o.singleFile && stmt.directive == c!"include") = true → stmt.args = a :: as →
      hasMagic (resolve env configDir a) = false → env.openFile ps.opens (resolve env configDir a) = .ok data →
      InclR env o configDir file ctx stmt ps
        (.ok (addIncludes file ctx stmt { ps with opens := ps.opens + 1 } [resolve env configDir a]).1,
          (addIncludes file ctx stmt { ps with opens := ps.opens + 1 } [resolve env configDir a]).2)

theorem doInclude_inclR (env : Env) (o : ParseOptions) (configDir file : Str) (ctx : Ctx) (stmt : Directive) (ps : PS) :
    InclR env o configDir file ctx stmt ps (doInclude env o configDir file ctx stmt ps) := by
  unfold doInclude
  by_cases h : (!o.singleFile && stmt.directive == c!"include") = true
  · rw [if_pos h]
    cases ha : stmt.args with
    | nil => exact .noArgs h ha
    | cons a as =>
      simp only
      rw [← resolve]
      by_cases hm : hasMagic (resolve env configDir a) = true
      · rw [if_pos hm]
        cases hg : env.glob ps.globs (resolve env configDir a) with
        | error e => exact .globErr a as e h ha hm hg
        | ok names => exact .globOk a as names h ha hm hg
      · rw [if_neg hm]
        rw [Bool.not_eq_true] at hm
        cases hg : env.openFile ps.opens (resolve env configDir a) with
        | error e =>
          simp only
          cases hs : o.stopParsingOnError with
          | true => exact .openFail a as e h ha hm hg hs
          | false => exact .openBad a as e h ha hm hg hs
        | ok data => exact .openOk a as data h ha hm hg
  · rw [if_neg h]
    rw [Bool.not_eq_true] at h
    exact .other h

/-- `doInclude` gives a directive or an error. -/
theorem doInclude_cases (env : Env) (o : ParseOptions) (configDir file : Str) (ctx : Ctx) (stmt : Directive) (ps : PS) :
    (∃ stmt' ps', doInclude env o configDir file ctx stmt ps = (.ok stmt', ps')) ∨
    (∃ e ps', doInclude env o configDir file ctx stmt ps = (.err e, ps')) := by
  have h := doInclude_inclR env o configDir file ctx stmt ps
  generalize doInclude env o configDir file ctx stmt ps = r at h ⊢
  cases h with
  | other => exact Or.inl ⟨_, _, rfl⟩
  | noArgs => exact Or.inr ⟨_, _, rfl⟩
  | globErr => exact Or.inr ⟨_, _, rfl⟩
  | globOk => exact Or.inl ⟨_, _, rfl⟩
  | openBad => exact Or.inl ⟨_, _, rfl⟩
  | openFail => exact Or.inr ⟨_, _, rfl⟩
  | openOk => exact Or.inl ⟨_, _, rfl⟩

theorem baseStmt_directive (o : ParseOptions) (file : Str) (t : Tok) (args : List Str) : (baseStmt o file t args).directive = t.value := rfl

/-- Every round is one of the cases. -/
theorem step_cases (env : Env) (o : ParseOptions) (configDir file : Str) (ctx : Ctx) (t : Tok) (toks : List Tok) (ps : PS) :
    StepR env o configDir file ctx t toks ps (step env o configDir file ctx t toks ps) := by
  unfold step
  cases he : t.error with
  | some e => exact .tokErr e he
  | none =>
  simp only
  cases h1 : t.is c!"}" with
  | true => simp only [if_true]; exact .close he h1
  | false =>
  simp only [Bool.false_eq_true, if_false]
  cases h2 : t.isCommentTok with
  | true => simp only [if_true]; exact .comment he h1 h2
  | false =>
  simp only [Bool.false_eq_true, if_false]
  cases hr : readArgs o.parseComments [] [] toks with
  | none => exact .premature he h1 h2 hr
  | some r =>
  obtain ⟨args, comments, term, rest⟩ := r
  have R : Reads o t toks args comments term rest := ⟨he, h1, h2, hr⟩
  simp only
  unfold stepStmt
  cases hm : mapCtx ctx.vals with
  | some m =>
    simp only
    cases ha : analyzeMapBody file (baseStmt o file t args) term.value m with
    | some err =>
      simp only
      cases hs : o.stopParsingOnError with
      | true => simp only [if_true]; exact .mapFail _ _ _ _ _ _ R hm ha hs
      | false => simp only [Bool.false_eq_true, if_false]; exact .mapBad _ _ _ _ _ _ R hm ha hs
    | none => exact .mapOk _ _ _ _ _ R hm ha
  | none =>
  simp only
  by_cases hi : contains o.ignoreDirectives (baseStmt o file t args).directive = true
  · rw [if_pos hi]; exact .ignored _ _ _ _ R hm hi
  rw [if_neg hi]
  rw [Bool.not_eq_true] at hi
  cases ha : analyze file (baseStmt o file t args) term.value ctx.vals o with
  | some err =>
    simp only
    cases hs : o.stopParsingOnError with
    | true => simp only [Bool.not_true, Bool.false_eq_true, if_false]; exact .rejectFail _ _ _ _ _ R hm hi ha hs
    | false =>
      simp only [Bool.not_false, if_true]
      cases hsuf : hasSuffix err.what notTerminated with
      | false => simp only [Bool.false_eq_true, if_false]; exact .reject _ _ _ _ _ R hm hi ha hs hsuf
      | true =>
        simp only [if_true]
        cases ht : (term.value != c!"}" && !term.quoted) with
        | true => simp only [if_true]; exact .rejectSkip _ _ _ _ _ R hm hi ha hs hsuf ht
        | false => simp only [Bool.false_eq_true, if_false]; exact .rejectStop _ _ _ _ _ R hm hi ha hs hsuf ht
  | none =>
  simp only
  cases hp : prepIf (baseStmt o file t args) with
  | none => exact .panic _ _ _ _ R hm hi ha hp
  | some stmt =>
  simp only
  rcases doInclude_cases env o configDir file ctx stmt ps with ⟨stmt', ps', hd⟩ | ⟨e, ps', hd⟩
  · rw [hd]
    simp only
    cases hb : term.is c!"{" with
    | true => simp only [if_true]; exact .block _ _ _ _ _ _ _ R hm hi ha hp hd hb
    | false => simp only [Bool.false_eq_true, if_false]; exact .simple _ _ _ _ _ _ _ R hm hi ha hp hd hb
  · rw [hd]
    exact .inclFail _ _ _ _ _ _ _ R hm hi ha hp hd

/-- The cases determine the round. -/
theorem StepR.step_eq {env : Env} {o : ParseOptions} {configDir file : Str} {ctx : Ctx} {t : Tok} {toks : List Tok} {ps : PS} {s : Step}
    (h : StepR env o configDir file ctx t toks ps s) : step env o configDir file ctx t toks ps = s := by
  unfold step stepStmt
  cases h with
  | tokErr e h => rw [h]
  | close h1 h2 => simp [h1, h2]
  | comment h1 h2 h3 => simp [h1, h2, h3]
  | premature h1 h2 h3 h4 => simp [h1, h2, h3, h4]
  | mapFail _ _ _ _ _ _ R h1 h2 h3 => simp [R.noErr, R.notClose, R.notComment, R.read, h1, h2, h3]
  | mapBad _ _ _ _ _ _ R h1 h2 h3 => simp [R.noErr, R.notClose, R.notComment, R.read, h1, h2, h3]
  | mapOk _ _ _ _ _ R h1 h2 => simp [R.noErr, R.notClose, R.notComment, R.read, h1, h2]
  | ignored _ _ _ _ R h1 h2 => simp [R.noErr, R.notClose, R.notComment, R.read, h1, h2, baseStmt_directive]
  | rejectFail _ _ _ _ _ R h1 h2 h3 h4 => simp [R.noErr, R.notClose, R.notComment, R.read, h1, h2, h3, h4, baseStmt_directive]
  | rejectSkip _ _ _ _ _ R h1 h2 h3 h4 h5 h6 =>
    simp only [R.noErr, R.notClose, R.notComment, R.read, h1, h2, h3, h4, h5, h6, baseStmt_directive, Bool.false_eq_true, if_false, if_true,
      Bool.not_false]
  | rejectStop _ _ _ _ _ R h1 h2 h3 h4 h5 h6 =>
    simp only [R.noErr, R.notClose, R.notComment, R.read, h1, h2, h3, h4, h5, h6, baseStmt_directive, Bool.false_eq_true, if_false, if_true,
      Bool.not_false]
  | reject _ _ _ _ _ R h1 h2 h3 h4 h5 => simp [R.noErr, R.notClose, R.notComment, R.read, h1, h2, h3, h4, h5, baseStmt_directive]
  | panic _ _ _ _ R h1 h2 h3 h4 => simp [R.noErr, R.notClose, R.notComment, R.read, h1, h2, h3, h4, baseStmt_directive]
  | inclFail _ _ _ _ _ _ _ R h1 h2 h3 h4 h5 => simp [R.noErr, R.notClose, R.notComment, R.read, h1, h2, h3, h4, h5, baseStmt_directive]
  | simple _ _ _ _ _ _ _ R h1 h2 h3 h4 h5 h6 => simp [R.noErr, R.notClose, R.notComment, R.read, h1, h2, h3, h4, h5, h6, baseStmt_directive]
  | block _ _ _ _ _ _ _ R h1 h2 h3 h4 h5 h6 => simp [R.noErr, R.notClose, R.notComment, R.read, h1, h2, h3, h4, h5, h6, baseStmt_directive]

/-- The result of a failing run. -/
def failRes {α : Type} : Option GoErr → Res α
  | some e => .err e
  | none => .panic

/-- One round of the model's loop. -/
theorem parse_step (env : Env) (o : ParseOptions) (configDir file : Str) (fuel : Nat) (ctx : Ctx) (t : Tok) (toks : List Tok)
    (parsed : List Directive) (ps : PS) :
    parse env o configDir file (fuel + 1) ctx (t :: toks) parsed ps =
      match step env o configDir file ctx t toks ps with
      | .stop toks' ps' => (.ok parsed, toks', ps')
      | .fail e toks' ps' => (failRes e, toks', ps')
      | .next new toks' ps' => parse env o configDir file fuel ctx toks' (parsed ++ new) ps'
      | .block stmt comments toks' ps' =>
        match parse env o configDir file fuel (enterBlockCtx stmt ctx ps').1 toks' [] (enterBlockCtx stmt ctx ps').2 with
        | (.ok blocks, toks', ps') =>
          parse env o configDir file fuel ctx toks'
            (parsed ++ [{ stmt with block := some blocks }] ++
              commentDirectives stmt.line (if o.combineConfigs then file else []) comments) ps'
        | (.err e, toks', ps') => (.err e, toks', ps')
        | (.panic, toks', ps') => (.panic, toks', ps')
        | (.fuel, toks', ps') => (.fuel, toks', ps') := by
  have hS := step_cases env o configDir file ctx t toks ps
  generalize hs : step env o configDir file ctx t toks ps = s at hS
  rw [parse.eq_def]
  simp only
  cases hS with
  | tokErr e h => rw [h]; rfl
  | close h1 h2 => simp [h1, h2]
  | comment h1 h2 h3 =>
    simp only [h1, h2, h3, Bool.false_eq_true, if_false, if_true]
    cases o.parseComments with
    | true => rfl
    | false => simp
  | premature h1 h2 h3 h4 => simp [h1, h2, h3, h4, failRes]
  | mapFail args comments term rest m err R h1 h2 h3 =>
    unfold baseStmt at h2
    simp only [R.noErr, R.notClose, R.notComment, R.read, Bool.false_eq_true, if_false]
    rw [h1]; simp only; rw [h2]; simp only [h3, if_true]; rfl
  | mapBad args comments term rest m err R h1 h2 h3 =>
    unfold baseStmt at h2
    simp only [R.noErr, R.notClose, R.notComment, R.read, Bool.false_eq_true, if_false]
    rw [h1]; simp only; rw [h2]; simp only [h3, Bool.false_eq_true, if_false, List.append_nil]
  | mapOk args comments term rest m R h1 h2 =>
    unfold baseStmt at h2
    simp only [R.noErr, R.notClose, R.notComment, R.read, Bool.false_eq_true, if_false]
    rw [h1]; simp only; rw [h2]; rfl
  | ignored args comments term rest R h1 h2 =>
    simp only [R.noErr, R.notClose, R.notComment, R.read, Bool.false_eq_true, if_false]
    rw [h1]; simp only [h2, if_true, List.append_nil]
  | rejectFail args comments term rest err R h1 h2 h3 h4 =>
    unfold baseStmt at h3
    simp only [R.noErr, R.notClose, R.notComment, R.read, Bool.false_eq_true, if_false]
    rw [h1]; simp only [h2, Bool.false_eq_true, if_false]; rw [h3]; simp [h4, failRes]
  | rejectSkip args comments term rest err R h1 h2 h3 h4 h5 h6 =>
    unfold baseStmt at h3
    simp only [R.noErr, R.notClose, R.notComment, R.read, Bool.false_eq_true, if_false]
    rw [h1]; simp only [h2, Bool.false_eq_true, if_false]; rw [h3]
    simp only [h4, h5, h6, Bool.not_false, if_true, List.append_nil]
  | rejectStop args comments term rest err R h1 h2 h3 h4 h5 h6 =>
    unfold baseStmt at h3
    simp only [R.noErr, R.notClose, R.notComment, R.read, Bool.false_eq_true, if_false]
    rw [h1]; simp only [h2, Bool.false_eq_true, if_false]; rw [h3]
    simp only [h4, h5, h6, Bool.not_false, if_true, Bool.false_eq_true, if_false]
  | reject args comments term rest err R h1 h2 h3 h4 h5 =>
    unfold baseStmt at h3
    simp only [R.noErr, R.notClose, R.notComment, R.read, Bool.false_eq_true, if_false]
    rw [h1]; simp only [h2, Bool.false_eq_true, if_false]; rw [h3]
    simp only [h4, h5, Bool.not_false, if_true, Bool.false_eq_true, if_false, List.append_nil]
  | panic args comments term rest R h1 h2 h3 h4 =>
    unfold baseStmt at h3 h4
    simp only [R.noErr, R.notClose, R.notComment, R.read, Bool.false_eq_true, if_false]
    rw [h1]; simp only [h2, Bool.false_eq_true, if_false]; rw [h3]; simp only; rw [h4]; rfl
  | inclFail args comments term rest stmt e ps' R h1 h2 h3 h4 h5 =>
    unfold baseStmt at h3 h4
    simp only [R.noErr, R.notClose, R.notComment, R.read, Bool.false_eq_true, if_false]
    rw [h1]; simp only [h2, Bool.false_eq_true, if_false]; rw [h3]; simp only; rw [h4]; simp only; rw [h5]; rfl
  | simple args comments term rest stmt stmt' ps' R h1 h2 h3 h4 h5 h6 =>
    unfold baseStmt at h3 h4
    simp only [R.noErr, R.notClose, R.notComment, R.read, Bool.false_eq_true, if_false]
    rw [h1]; simp only [h2, Bool.false_eq_true, if_false]; rw [h3]; simp only; rw [h4]; simp only; rw [h5]
    simp only [h6, Bool.false_eq_true, if_false, List.append_assoc]
  | block args comments term rest stmt stmt' ps' R h1 h2 h3 h4 h5 h6 =>
    unfold baseStmt at h3 h4
    simp only [R.noErr, R.notClose, R.notComment, R.read, Bool.false_eq_true, if_false]
    rw [h1]; simp only [h2, Bool.false_eq_true, if_false]; rw [h3]; simp only; rw [h4]; simp only; rw [h5]
    simp only [h6, if_true]
    rfl

/-- A run that returns the directives `ds` (those added since the start of the run), with the tokens not read and the state after it. -/
inductive RunOk (env : Env) (o : ParseOptions) (configDir file : Str) : Ctx → List Tok → PS → List Directive → List Tok → PS → Prop where
  | eof (ctx ps) : RunOk env o configDir file ctx [] ps [] [] ps
  | stop (ctx t toks ps toks' ps') : step env o configDir file ctx t toks ps = .stop toks' ps' →
      RunOk env o configDir file ctx (t :: toks) ps [] toks' ps'
  | next (ctx t toks ps new toks1 ps1 ds toks' ps') : step env o configDir file ctx t toks ps = .next new toks1 ps1 →
      RunOk env o configDir file ctx toks1 ps1 ds toks' ps' →
      RunOk env o configDir file ctx (t :: toks) ps (new ++ ds) toks' ps'
  | block (ctx t toks ps stmt comments toks1 ps1 b toks2 ps2 ds toks' ps') :
      step env o configDir file ctx t toks ps = .block stmt comments toks1 ps1 →
      RunOk env o configDir file (enterBlockCtx stmt ctx ps1).1 toks1 (enterBlockCtx stmt ctx ps1).2 b toks2 ps2 →
      RunOk env o configDir file ctx toks2 ps2 ds toks' ps' →
      RunOk env o configDir file ctx (t :: toks) ps
        ({ stmt with block := some b } :: (commentDirectives stmt.line (if o.combineConfigs then file else []) comments ++ ds)) toks' ps'

/-- A run that fails (`none` is a panic). -/
inductive RunFail (env : Env) (o : ParseOptions) (configDir file : Str) : Ctx → List Tok → PS → Option GoErr → List Tok → PS → Prop where
  | fail (ctx t toks ps e toks' ps') : step env o configDir file ctx t toks ps = .fail e toks' ps' →
      RunFail env o configDir file ctx (t :: toks) ps e toks' ps'
  | next (ctx t toks ps new toks1 ps1 e toks' ps') : step env o configDir file ctx t toks ps = .next new toks1 ps1 →
      RunFail env o configDir file ctx toks1 ps1 e toks' ps' →
      RunFail env o configDir file ctx (t :: toks) ps e toks' ps'
  | inside (ctx t toks ps stmt comments toks1 ps1 e toks' ps') :
      step env o configDir file ctx t toks ps = .block stmt comments toks1 ps1 →
      RunFail env o configDir file (enterBlockCtx stmt ctx ps1).1 toks1 (enterBlockCtx stmt ctx ps1).2 e toks' ps' →
      RunFail env o configDir file ctx (t :: toks) ps e toks' ps'
  | after (ctx t toks ps stmt comments toks1 ps1 b toks2 ps2 e toks' ps') :
      step env o configDir file ctx t toks ps = .block stmt comments toks1 ps1 →
      RunOk env o configDir file (enterBlockCtx stmt ctx ps1).1 toks1 (enterBlockCtx stmt ctx ps1).2 b toks2 ps2 →
      RunFail env o configDir file ctx toks2 ps2 e toks' ps' →
      RunFail env o configDir file ctx (t :: toks) ps e toks' ps'

/-! ## Tokens are used up -/

theorem readArgs_length (pc : Bool) (args comments : List Str) (toks : List Tok) (r : List Str × List Str × Tok × List Tok)
    (h : readArgs pc args comments toks = some r) : r.2.2.2.length < toks.length := by
  induction toks generalizing args comments with
  | nil => simp [readArgs] at h
  | cons t toks ih =>
    unfold readArgs at h
    split at h
    · cases h; simp
    · split at h
      · have := ih _ _ h; simp; omega
      · split at h
        · have := ih _ _ h; simp; omega
        · have := ih _ _ h; simp; omega

theorem consume_length (depth : Nat) (toks : List Tok) : (consume depth toks).length ≤ toks.length := by
  induction toks generalizing depth with
  | nil => simp [consume]
  | cons t toks ih =>
    unfold consume
    split
    · split
      · simp
      · rename_i d; have := ih d; simp; omega
    · split
      · have := ih (depth + 1); simp; omega
      · have := ih depth; simp; omega

theorem skipBlock_length (term : Tok) (toks : List Tok) : (skipBlock term toks).length ≤ toks.length := by
  unfold skipBlock
  split
  · exact consume_length 0 toks
  · exact Nat.le_refl _

/-- The tokens left after a round. -/
def Step.rest : Step → List Tok
  | .stop toks _ => toks
  | .fail _ toks _ => toks
  | .next _ toks _ => toks
  | .block _ _ toks _ => toks

theorem step_length (env : Env) (o : ParseOptions) (configDir file : Str) (ctx : Ctx) (t : Tok) (toks : List Tok) (ps : PS) :
    (step env o configDir file ctx t toks ps).rest.length ≤ toks.length := by
  have h := step_cases env o configDir file ctx t toks ps
  generalize step env o configDir file ctx t toks ps = s at h
  have hR : ∀ {args comments term rest}, Reads o t toks args comments term rest → rest.length ≤ toks.length := fun R => by
    have := readArgs_length _ _ _ _ _ R.read
    simp only at this; omega
  cases h with
  | tokErr | close | comment => simp [Step.rest]
  | premature => simp [Step.rest]
  | mapFail _ _ _ _ _ _ R => exact hR R
  | mapBad _ _ _ _ _ _ R => exact Nat.le_trans (skipBlock_length _ _) (hR R)
  | mapOk _ _ _ _ _ R => exact hR R
  | ignored _ _ _ _ R => exact Nat.le_trans (skipBlock_length _ _) (hR R)
  | rejectFail _ _ _ _ _ R => exact hR R
  | rejectSkip _ _ _ _ _ R => exact Nat.le_trans (consume_length _ _) (hR R)
  | rejectStop _ _ _ _ _ R => exact hR R
  | reject _ _ _ _ _ R => exact hR R
  | panic _ _ _ _ R => exact hR R
  | inclFail _ _ _ _ _ _ _ R => exact hR R
  | simple _ _ _ _ _ _ _ R => exact hR R
  | block _ _ _ _ _ _ _ R => exact hR R

/-- With a unit of fuel more than there are tokens, `parse` gives the result of a run. -/
theorem parse_run (env : Env) (o : ParseOptions) (configDir file : Str) (fuel : Nat) (ctx : Ctx) (toks : List Tok)
    (parsed : List Directive) (ps : PS) (hf : toks.length < fuel) :
    ∃ toks' ps', toks'.length ≤ toks.length ∧
      ((∃ ds, RunOk env o configDir file ctx toks ps ds toks' ps' ∧
          parse env o configDir file fuel ctx toks parsed ps = (.ok (parsed ++ ds), toks', ps')) ∨
       (∃ e, RunFail env o configDir file ctx toks ps e toks' ps' ∧
          parse env o configDir file fuel ctx toks parsed ps = (failRes e, toks', ps'))) := by
  induction fuel generalizing ctx toks parsed ps with
  | zero => omega
  | succ fuel ih =>
    cases toks with
    | nil => exact ⟨[], ps, by simp, Or.inl ⟨[], .eof _ _, by simp [parse]⟩⟩
    | cons t toks =>
      have hl := step_length env o configDir file ctx t toks ps
      rw [parse_step]
      simp only [List.length_cons] at hf ⊢
      cases hs : step env o configDir file ctx t toks ps with
      | stop toks' ps' =>
        rw [hs] at hl
        exact ⟨toks', ps', Nat.le_succ_of_le hl, Or.inl ⟨[], .stop _ _ _ _ _ _ hs, by simp⟩⟩
      | fail e toks' ps' =>
        rw [hs] at hl
        exact ⟨toks', ps', Nat.le_succ_of_le hl, Or.inr ⟨e, .fail _ _ _ _ _ _ _ hs, rfl⟩⟩
      | next new toks1 ps1 =>
        rw [hs] at hl
        simp only [Step.rest] at hl
        obtain ⟨toks', ps', h1, h2⟩ := ih ctx toks1 (parsed ++ new) ps1 (by omega)
        refine ⟨toks', ps', by omega, ?_⟩
        rcases h2 with ⟨ds, h2, h3⟩ | ⟨e, h2, h3⟩
        · exact Or.inl ⟨new ++ ds, .next _ _ _ _ _ _ _ _ _ _ hs h2, by simp only; rw [h3, List.append_assoc]⟩
        · exact Or.inr ⟨e, .next _ _ _ _ _ _ _ _ _ _ hs h2, h3⟩
      | block stmt comments toks1 ps1 =>
        rw [hs] at hl
        simp only [Step.rest] at hl
        obtain ⟨toks2, ps2, h1, h2⟩ := ih (enterBlockCtx stmt ctx ps1).1 toks1 [] (enterBlockCtx stmt ctx ps1).2 (by omega)
        rcases h2 with ⟨b, h2, h3⟩ | ⟨e, h2, h3⟩
        · simp only [h3]
          obtain ⟨toks', ps', h4, h5⟩ := ih ctx toks2 (parsed ++ [{ stmt with block := some b }] ++
              commentDirectives stmt.line (if o.combineConfigs then file else []) comments) ps2 (by omega)
          refine ⟨toks', ps', by omega, ?_⟩
          rcases h5 with ⟨ds, h5, h6⟩ | ⟨e, h5, h6⟩
          · refine Or.inl ⟨_, .block _ _ _ _ _ _ _ _ _ _ _ _ _ _ hs h2 h5, ?_⟩
            simp only [List.nil_append]
            rw [h6]
            simp
          · refine Or.inr ⟨e, .after _ _ _ _ _ _ _ _ _ _ _ _ _ _ hs h2 h5, ?_⟩
            simpa only [List.nil_append] using h6
        · refine ⟨toks2, ps2, by omega, Or.inr ⟨e, .inside _ _ _ _ _ _ _ _ _ _ _ hs h2, ?_⟩⟩
          simp only [h3]
          cases e <;> rfl

theorem RunOk.length {env : Env} {o : ParseOptions} {configDir file : Str} {ctx : Ctx} {toks : List Tok} {ps : PS}
    {ds : List Directive} {toks' : List Tok} {ps' : PS} (h : RunOk env o configDir file ctx toks ps ds toks' ps') :
    toks'.length ≤ toks.length := by
  induction h with
  | eof => simp
  | stop ctx t toks ps toks' ps' hs =>
    have := step_length env o configDir file ctx t toks ps
    rw [hs] at this; simp only [Step.rest] at this; simp only [List.length_cons]; omega
  | next ctx t toks ps new toks1 ps1 ds toks' ps' hs _ ih =>
    have := step_length env o configDir file ctx t toks ps
    rw [hs] at this; simp only [Step.rest] at this; simp only [List.length_cons]; omega
  | block ctx t toks ps stmt comments toks1 ps1 b toks2 ps2 ds toks' ps' hs _ _ ih1 ih2 =>
    have := step_length env o configDir file ctx t toks ps
    rw [hs] at this; simp only [Step.rest] at this; simp only [List.length_cons]; omega

/-- A run is what `parse` computes. -/
theorem RunOk.parse_eq {env : Env} {o : ParseOptions} {configDir file : Str} {ctx : Ctx} {toks : List Tok} {ps : PS}
    {ds : List Directive} {toks' : List Tok} {ps' : PS} (h : RunOk env o configDir file ctx toks ps ds toks' ps') (fuel : Nat)
    (parsed : List Directive) (hf : toks.length < fuel) :
    parse env o configDir file fuel ctx toks parsed ps = (.ok (parsed ++ ds), toks', ps') := by
  induction h generalizing fuel parsed with
  | eof =>
    cases fuel with
    | zero => omega
    | succ fuel => simp [parse]
  | stop ctx t toks ps toks' ps' hs =>
    cases fuel with
    | zero => omega
    | succ fuel => rw [parse_step, hs]; simp
  | next ctx t toks ps new toks1 ps1 ds toks' ps' hs _ ih =>
    cases fuel with
    | zero => omega
    | succ fuel =>
      have := step_length env o configDir file ctx t toks ps
      rw [hs] at this; simp only [Step.rest] at this; simp only [List.length_cons] at hf
      rw [parse_step, hs]
      simp only
      rw [ih fuel (parsed ++ new) (by omega), List.append_assoc]
  | block ctx t toks ps stmt comments toks1 ps1 b toks2 ps2 ds toks' ps' hs h1 h2 ih1 ih2 =>
    cases fuel with
    | zero => omega
    | succ fuel =>
      have := step_length env o configDir file ctx t toks ps
      rw [hs] at this; simp only [Step.rest] at this; simp only [List.length_cons] at hf
      have := h1.length
      rw [parse_step, hs]
      simp only
      rw [ih1 fuel [] (by omega)]
      simp only
      rw [ih2 fuel _ (by omega)]
      simp

theorem RunFail.parse_eq {env : Env} {o : ParseOptions} {configDir file : Str} {ctx : Ctx} {toks : List Tok} {ps : PS}
    {e : Option GoErr} {toks' : List Tok} {ps' : PS} (h : RunFail env o configDir file ctx toks ps e toks' ps') (fuel : Nat)
    (parsed : List Directive) (hf : toks.length < fuel) :
    parse env o configDir file fuel ctx toks parsed ps = (failRes e, toks', ps') := by
  induction h generalizing fuel parsed with
  | fail ctx t toks ps e toks' ps' hs =>
    cases fuel with
    | zero => omega
    | succ fuel => rw [parse_step, hs]
  | next ctx t toks ps new toks1 ps1 e toks' ps' hs _ ih =>
    cases fuel with
    | zero => omega
    | succ fuel =>
      have := step_length env o configDir file ctx t toks ps
      rw [hs] at this; simp only [Step.rest] at this; simp only [List.length_cons] at hf
      rw [parse_step, hs]
      exact ih fuel (parsed ++ new) (by omega)
  | inside ctx t toks ps stmt comments toks1 ps1 e toks' ps' hs h1 ih1 =>
    cases fuel with
    | zero => omega
    | succ fuel =>
      have := step_length env o configDir file ctx t toks ps
      rw [hs] at this; simp only [Step.rest] at this; simp only [List.length_cons] at hf
      rw [parse_step, hs]
      simp only
      rw [ih1 fuel [] (by omega)]
      cases e <;> rfl
  | after ctx t toks ps stmt comments toks1 ps1 b toks2 ps2 e toks' ps' hs h1 h2 ih2 =>
    cases fuel with
    | zero => omega
    | succ fuel =>
      have := step_length env o configDir file ctx t toks ps
      rw [hs] at this; simp only [Step.rest] at this; simp only [List.length_cons] at hf
      have := h1.length
      rw [parse_step, hs]
      simp only
      rw [h1.parse_eq fuel [] (by omega)]
      simp only
      exact ih2 fuel _ (by omega)

/-- Enough fuel, with the result of the run: what `parseFiles` does with one file. -/
theorem parse_file (env : Env) (o : ParseOptions) (configDir file : Str) (ctx : Ctx) (toks : List Tok) (ps : PS) :
    (∃ ds toks' ps', RunOk env o configDir file ctx toks ps ds toks' ps' ∧
      parse env o configDir file (toks.length + 1) ctx toks [] ps = (.ok ds, toks', ps')) ∨
    (∃ e toks' ps', RunFail env o configDir file ctx toks ps e toks' ps' ∧
      parse env o configDir file (toks.length + 1) ctx toks [] ps = (failRes e, toks', ps')) := by
  obtain ⟨toks', ps', -, h⟩ := parse_run env o configDir file (toks.length + 1) ctx toks [] ps (Nat.lt_succ_self _)
  rcases h with ⟨ds, h1, h2⟩ | ⟨e, h1, h2⟩
  · exact Or.inl ⟨ds, toks', ps', h1, by simpa using h2⟩
  · exact Or.inr ⟨e, toks', ps', h1, h2⟩

end Verif
