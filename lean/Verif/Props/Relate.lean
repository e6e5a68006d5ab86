import Verif.Proofs.Sim
import Verif.Spec.Comments
import Verif.Props.Include
/-!
# C21: comments do not influence the parse; C33: the files of directives
-/
namespace Verif
open Spec

theorem tagFile_cons (f : Str) (d : Directive) (ds : List Directive) :
    tagFile f (d :: ds) = { d with file := f, block := d.block.map (tagFile f) } :: tagFile f ds := by
  obtain ⟨dd, dl, dargs, df, dincl, dblock, dcomm, dmap⟩ := d
  cases dblock <;> rfl

theorem tagFile_append (f : Str) (a b : List Directive) : tagFile f (a ++ b) = tagFile f a ++ tagFile f b := by
  induction a with
  | nil => rfl
  | cons d a ih => rw [List.cons_append, tagFile_cons, tagFile_cons, ih]; rfl

theorem tagFile_comments (f : Str) (line : Int) (fn : Str) (cs : List Str) :
    tagFile f (commentDirectives line fn cs) = commentDirectives line f cs := by
  induction cs with
  | nil => rfl
  | cons c cs ih =>
    unfold commentDirectives at ih ⊢
    rw [List.map_cons, tagFile_cons, ih]; rfl

/-- `File` set to `f`, not inside the block. -/
def Directive.setFile (f : Str) (d : Directive) : Directive := { d with file := f }

theorem addInclude_setFile (file : Str) (ctx : Ctx) (stmt : Directive) (ps : PS) (fname f : Str) :
    addInclude file ctx (stmt.setFile f) ps fname =
      ((addInclude file ctx stmt ps fname).1.setFile f, (addInclude file ctx stmt ps fname).2) := rfl

theorem addIncludes_setFile (file : Str) (ctx : Ctx) (stmt : Directive) (ps : PS) (names : List Str) (f : Str) :
    addIncludes file ctx (stmt.setFile f) ps names =
      ((addIncludes file ctx stmt ps names).1.setFile f, (addIncludes file ctx stmt ps names).2) := by
  induction names generalizing stmt ps with
  | nil => rfl
  | cons n ns ih =>
    unfold addIncludes
    rw [addInclude_setFile]
    exact ih _ _

/-- The options with CombineConfigs set to `b`. -/
def ParseOptions.withCombine (o : ParseOptions) (b : Bool) : ParseOptions := { o with combineConfigs := b }

theorem doInclude_setFile (env : Env) (o : ParseOptions) (b b' : Bool) (configDir file : Str) (ctx : Ctx) (stmt : Directive) (ps : PS) (f : Str) :
    doInclude env (o.withCombine b') configDir file ctx (stmt.setFile f) ps =
      ((doInclude env (o.withCombine b) configDir file ctx stmt ps).1.map (Directive.setFile f),
        (doInclude env (o.withCombine b) configDir file ctx stmt ps).2) := by
  have hr := doInclude_inclR env (o.withCombine b) configDir file ctx stmt ps
  generalize doInclude env (o.withCombine b) configDir file ctx stmt ps = r at hr
  unfold doInclude
  cases hr with
  | other h1 =>
    rw [if_neg (show ¬ (!(o.withCombine b').singleFile && (stmt.setFile f).directive == c!"include") = true by
      rw [Bool.not_eq_true]; exact h1)]
    rfl
  | noArgs h1 h2 =>
    rw [if_pos (show (!(o.withCombine b').singleFile && (stmt.setFile f).directive == c!"include") = true from h1),
      show (stmt.setFile f).args = [] from h2]
    rfl
  | globErr a as e h1 h2 h3 h4 =>
    rw [if_pos (show (!(o.withCombine b').singleFile && (stmt.setFile f).directive == c!"include") = true from h1),
      show (stmt.setFile f).args = a :: as from h2]
    simp only
    rw [← resolve, if_pos h3, h4]; rfl
  | globOk a as names h1 h2 h3 h4 =>
    rw [if_pos (show (!(o.withCombine b').singleFile && (stmt.setFile f).directive == c!"include") = true from h1),
      show (stmt.setFile f).args = a :: as from h2]
    simp only
    rw [← resolve, if_pos h3, h4]
    simp only [addIncludes_setFile, Res.map_ok]
  | openBad a as e h1 h2 h3 h4 h5 =>
    rw [if_pos (show (!(o.withCombine b').singleFile && (stmt.setFile f).directive == c!"include") = true from h1),
      show (stmt.setFile f).args = a :: as from h2]
    simp only
    rw [← resolve, if_neg (by simp [h3]), h4]
    simp only
    rw [if_pos (show (!(o.withCombine b').stopParsingOnError) = true by rw [show (o.withCombine b').stopParsingOnError = false from h5]; rfl)]
    rfl
  | openFail a as e h1 h2 h3 h4 h5 =>
    rw [if_pos (show (!(o.withCombine b').singleFile && (stmt.setFile f).directive == c!"include") = true from h1),
      show (stmt.setFile f).args = a :: as from h2]
    simp only
    rw [← resolve, if_neg (by simp [h3]), h4]
    simp only
    rw [if_neg (show ¬ (!(o.withCombine b').stopParsingOnError) = true by rw [show (o.withCombine b').stopParsingOnError = true from h5]; simp)]
    rfl
  | openOk a as data h1 h2 h3 h4 =>
    rw [if_pos (show (!(o.withCombine b').singleFile && (stmt.setFile f).directive == c!"include") = true from h1),
      show (stmt.setFile f).args = a :: as from h2]
    simp only
    rw [← resolve, if_neg (by simp [h3]), h4]
    simp only [addIncludes_setFile, Res.map_ok]

theorem baseStmt_combine (o : ParseOptions) (file : Str) (t : Tok) (args : List Str) :
    baseStmt (o.withCombine true) file t args = (baseStmt (o.withCombine false) file t args).setFile file := rfl

theorem checkMasks_setFile (d : Directive) (term what : Str) (masks : List Nat) (f : Str) :
    checkMasks (d.setFile f) term what masks = checkMasks d term what masks := by
  induction masks generalizing what with
  | nil => rfl
  | cons m ms ih =>
    unfold checkMasks
    simp only [ih]
    rfl

theorem analyze_setFile (o : ParseOptions) (b b' : Bool) (file : Str) (d : Directive) (term : Str) (ctx : List Str) (f : Str) :
    analyze file (d.setFile f) term ctx (o.withCombine b) = analyze file d term ctx (o.withCombine b') := by
  unfold analyze
  simp only [checkMasks_setFile]
  rfl

theorem analyzeMapBody_setFile (file : Str) (d : Directive) (term m f : Str) :
    analyzeMapBody file (d.setFile f) term m = analyzeMapBody file d term m := rfl

theorem prepareIfArgs_setFile (d : Directive) (f : Str) : prepareIfArgs (d.setFile f) = (prepareIfArgs d).map (Directive.setFile f) := by
  obtain ⟨dd, dl, dargs, df, dincl, dblock, dcomm, dmap⟩ := d
  unfold prepareIfArgs
  simp only [Directive.setFile]
  cases dargs.head? with
  | none => rfl
  | some a =>
    cases dargs.getLast? with
    | none => rfl
    | some b =>
      simp only
      by_cases h : (hasPrefix a c!"(" && hasSuffix b c!")") = true
      · simp only [h, if_true]
        rw [apply_ite (Option.map (Directive.setFile f))]
        rfl
      · rw [if_neg h, if_neg h]
        rfl

theorem prepIf_setFile (d : Directive) (f : Str) : prepIf (d.setFile f) = (prepIf d).map (Directive.setFile f) := by
  unfold prepIf
  by_cases h : (d.directive == c!"if") = true
  · rw [if_pos h, if_pos (show ((d.setFile f).directive == c!"if") = true from h), prepareIfArgs_setFile]
  · rw [if_neg h, if_neg (show ¬ ((d.setFile f).directive == c!"if") = true from h)]; rfl

theorem Reads.withCombine {o : ParseOptions} {b b' : Bool} {t : Tok} {toks : List Tok} {args comments : List Str} {term : Tok} {rest : List Tok}
    (R : Reads (o.withCombine b) t toks args comments term rest) : Reads (o.withCombine b') t toks args comments term rest := ⟨R.1, R.2, R.3, R.4⟩

theorem stmt_shape {env : Env} {o : ParseOptions} {configDir file : Str} {ctx : Ctx} {t : Tok} {ps : PS} {args : List Str} {stmt stmt' : Directive} {ps' : PS}
    (h4 : prepIf (baseStmt o file t args) = some stmt) (h5 : doInclude env o configDir file ctx stmt ps = (.ok stmt', ps')) :
    stmt'.block = none ∧ stmt'.comment = none := by
  have e1 := prepIf_some h4
  obtain ⟨e2, -⟩ := doInclude_ok (show stmt.includes = none by rw [e1]; rfl) h5
  rw [e2, e1]
  exact ⟨rfl, rfl⟩

theorem sim_combine (env : Env) (o : ParseOptions) : Sim env (o.withCombine false) (o.withCombine true) tagFile where
  nil _ := rfl
  append := tagFile_append
  stop := rfl
  lexers := rfl
  callback := rfl
  step configDir file ctx t toks ps := by
    change StepSim (tagFile file) [] file _ _
    have hc := step_cases env (o.withCombine false) configDir file ctx t toks ps
    generalize step env (o.withCombine false) configDir file ctx t toks ps = s at hc ⊢
    cases hc with
    | tokErr e h => rw [(StepR.tokErr (o := o.withCombine true) e h).step_eq]; exact .fail _ _ _
    | close h1 h2 => rw [(StepR.close (o := o.withCombine true) h1 h2).step_eq]; exact .stop _ _
    | comment h1 h2 h3 =>
      rw [(StepR.comment (o := o.withCombine true) h1 h2 h3).step_eq]
      have := StepSim.next (Φ := tagFile file) (fn1 := []) (fn2 := file) (if o.parseComments then [commentStmt (o.withCombine false) file t] else []) toks ps
      have e : tagFile file (if o.parseComments then [commentStmt (o.withCombine false) file t] else []) =
          (if o.parseComments then [commentStmt (o.withCombine true) file t] else []) := by
        cases o.parseComments with
        | true => simp only [if_true]; rw [tagFile_cons]; rfl
        | false => rfl
      rw [e] at this
      exact this
    | premature h1 h2 h3 h4 => rw [(StepR.premature (o := o.withCombine true) h1 h2 h3 h4).step_eq]; exact .fail _ _ _
    | mapFail args comments term rest m err R h1 h2 h3 =>
      rw [(StepR.mapFail (o := o.withCombine true) args comments term rest m err R.withCombine h1 (by rw [baseStmt_combine]; exact h2) h3).step_eq]; exact .fail _ _ _
    | mapBad args comments term rest m err R h1 h2 h3 =>
      rw [(StepR.mapBad (o := o.withCombine true) args comments term rest m err R.withCombine h1 (by rw [baseStmt_combine]; exact h2) h3).step_eq]
      exact .next _ _ _
    | mapOk args comments term rest m R h1 h2 =>
      rw [(StepR.mapOk (o := o.withCombine true) args comments term rest m R.withCombine h1 (by rw [baseStmt_combine]; exact h2)).step_eq]
      have := StepSim.next (Φ := tagFile file) (fn1 := []) (fn2 := file)
        [{ baseStmt (o.withCombine false) file t args with isMapBlockParameter := true }] rest ps
      rw [tagFile_cons] at this
      exact this
    | ignored args comments term rest R h1 h2 =>
      rw [(StepR.ignored (o := o.withCombine true) args comments term rest R.withCombine h1 h2).step_eq]; exact .next _ _ _
    | rejectFail args comments term rest err R h1 h2 h3 h4 =>
      rw [(StepR.rejectFail (o := o.withCombine true) args comments term rest err R.withCombine h1 h2 (by rw [baseStmt_combine, analyze_setFile o true false]; exact h3) h4).step_eq]
      exact .fail _ _ _
    | rejectSkip args comments term rest err R h1 h2 h3 h4 h5 h6 =>
      rw [(StepR.rejectSkip (o := o.withCombine true) args comments term rest err R.withCombine h1 h2 (by rw [baseStmt_combine, analyze_setFile o true false]; exact h3) h4 h5 h6).step_eq]
      exact .next _ _ _
    | rejectStop args comments term rest err R h1 h2 h3 h4 h5 h6 =>
      rw [(StepR.rejectStop (o := o.withCombine true) args comments term rest err R.withCombine h1 h2 (by rw [baseStmt_combine, analyze_setFile o true false]; exact h3) h4 h5 h6).step_eq]
      exact .stop _ _
    | reject args comments term rest err R h1 h2 h3 h4 h5 =>
      rw [(StepR.reject (o := o.withCombine true) args comments term rest err R.withCombine h1 h2 (by rw [baseStmt_combine, analyze_setFile o true false]; exact h3) h4 h5).step_eq]
      exact .next _ _ _
    | panic args comments term rest R h1 h2 h3 h4 =>
      rw [(StepR.panic (o := o.withCombine true) args comments term rest R.withCombine h1 h2 (by rw [baseStmt_combine, analyze_setFile o true false]; exact h3)
        (by rw [baseStmt_combine, prepIf_setFile, h4]; rfl)).step_eq]
      exact .fail _ _ _
    | inclFail args comments term rest stmt e ps' R h1 h2 h3 h4 h5 =>
      rw [(StepR.inclFail (o := o.withCombine true) args comments term rest (stmt.setFile file) e ps' R.withCombine h1 h2 (by rw [baseStmt_combine, analyze_setFile o true false]; exact h3)
        (by rw [baseStmt_combine, prepIf_setFile, h4]; rfl) (by rw [doInclude_setFile env o false, h5]; rfl)).step_eq]
      exact .fail _ _ _
    | simple args comments term rest stmt stmt' ps' R h1 h2 h3 h4 h5 h6 =>
      rw [(StepR.simple (o := o.withCombine true) args comments term rest (stmt.setFile file) (stmt'.setFile file) ps' R.withCombine h1 h2
        (by rw [baseStmt_combine, analyze_setFile o true false]; exact h3)
        (by rw [baseStmt_combine, prepIf_setFile, h4]; rfl) (by rw [doInclude_setFile env o false, h5]; rfl) h6).step_eq]
      have := StepSim.next (Φ := tagFile file) (fn1 := []) (fn2 := file) ([stmt'] ++ commentDirectives stmt'.line [] comments) rest ps'
      rw [tagFile_append, tagFile_comments, tagFile_cons, (stmt_shape h4 h5).1] at this
      have e : ({ stmt' with file := file, block := Option.map (tagFile file) none } : Directive) = stmt'.setFile file := by
        unfold Directive.setFile; rw [(stmt_shape h4 h5).1]; rfl
      rw [e] at this
      exact this
    | block args comments term rest stmt stmt' ps' R h1 h2 h3 h4 h5 h6 =>
      rw [(StepR.block (o := o.withCombine true) args comments term rest (stmt.setFile file) (stmt'.setFile file) ps' R.withCombine h1 h2
        (by rw [baseStmt_combine, analyze_setFile o true false]; exact h3)
        (by rw [baseStmt_combine, prepIf_setFile, h4]; rfl) (by rw [doInclude_setFile env o false, h5]; rfl) h6).step_eq]
      refine .block _ _ _ _ _ _ rfl (fun b => ?_)
      rw [tagFile_append, tagFile_comments, tagFile_cons]
      rfl

/-- C33.  Parsing with CombineConfigs gives what parsing without it, writing the name of each config's file into its directives, and combining gives. -/
theorem C33_combined (env : Env) (fuel : Nat) (filename : Str) (o : ParseOptions) :
    Parse env fuel filename { o with combineConfigs := true } =
      (Parse env fuel filename { o with combineConfigs := false }).bind fun p => combined (p.config.length + 1) p.tagFiles := by
  change Parse env fuel filename (o.withCombine true) = (Parse env fuel filename (o.withCombine false)).bind _
  rw [Parse_raw, Parse_raw, (sim_combine env o).raw]
  cases parseRaw env fuel filename (o.withCombine false) with
  | ok p =>
    simp only [Res.map_ok, Res.bind, ParseOptions.withCombine, if_true, Bool.false_eq_true, if_false, List.length_map]
    rfl
  | err => rfl
  | panic => rfl
  | fuel => rfl

/-- C33.  Without CombineConfigs `File` is empty. -/
theorem C33_plain {env : Env} {fuel : Nat} {filename : Str} {o : ParseOptions} {p : Payload} (h : Parse env fuel filename o = .ok p)
    (ho : o.combineConfigs = false) : ∀ c ∈ p.config, ∀ d, Within d c.parsed → d.file = [] := by
  intro c hc d hd
  obtain ⟨file, inc, ctx, hn⟩ := Parse_nodes h c hc d hd
  have : fileName o file = [] := by unfold fileName; rw [ho]; rfl
  cases hn <;> exact this

theorem dropComments_cons (d : Directive) (ds : List Directive) : dropComments (d :: ds) =
    if d.directive = c!"#" ∧ d.comment.isSome = true then dropComments ds
    else { d with block := d.block.map dropComments } :: dropComments ds := by
  obtain ⟨dd, dl, dargs, df, dincl, dblock, dcomm, dmap⟩ := d
  cases dblock <;> rfl

theorem dropComments_append (a b : List Directive) : dropComments (a ++ b) = dropComments a ++ dropComments b := by
  induction a with
  | nil => rfl
  | cons d a ih =>
    rw [List.cons_append, dropComments_cons, dropComments_cons, ih]
    split <;> rfl

theorem dropComments_comments (line : Int) (fn : Str) (cs : List Str) : dropComments (commentDirectives line fn cs) = [] := by
  induction cs with
  | nil => rfl
  | cons c cs ih =>
    unfold commentDirectives at ih ⊢
    rw [List.map_cons, dropComments_cons, if_pos ⟨rfl, rfl⟩, ih]

theorem dropComments_one {d : Directive} (hc : d.comment = none) : dropComments [d] = [{ d with block := d.block.map dropComments }] := by
  rw [dropComments_cons, if_neg (by simp [hc])]; rfl

theorem dropComments_leaf {d : Directive} (hc : d.comment = none) (hb : d.block = none) : dropComments [d] = [d] := by
  rw [dropComments_one hc, hb]
  have : ({ d with block := Option.map dropComments none } : Directive) = d := by
    obtain ⟨dd, dl, dargs, df, dincl, dblock, dcomm, dmap⟩ := d
    simp only at hb
    rw [hb]; rfl
  rw [this]

/-- The options with ParseComments set to `b`. -/
def ParseOptions.withComments (o : ParseOptions) (b : Bool) : ParseOptions := { o with parseComments := b }

theorem readArgs_false (args comments : List Str) (toks : List Tok) :
    readArgs false args [] toks = (readArgs true args comments toks).map (fun r => (r.1, [], r.2.2.1, r.2.2.2)) := by
  induction toks generalizing args comments with
  | nil => rfl
  | cons t toks ih =>
    unfold readArgs
    cases t.isTerm with
    | true => rfl
    | false =>
      simp only [Bool.false_eq_true, if_false, if_true]
      cases t.isCommentTok with
      | true => exact ih _ _
      | false => exact ih _ _

theorem Reads.noComments {o : ParseOptions} {t : Tok} {toks : List Tok} {args comments : List Str} {term : Tok} {rest : List Tok}
    (R : Reads (o.withComments true) t toks args comments term rest) : Reads (o.withComments false) t toks args [] term rest :=
  ⟨R.1, R.2, R.3, by
    have h : readArgs true [] [] toks = some (args, comments, term, rest) := R.4
    have := readArgs_false [] [] toks
    rw [h] at this
    exact this⟩

theorem doInclude_withComments (env : Env) (o : ParseOptions) (b b' : Bool) (configDir file : Str) (ctx : Ctx) (stmt : Directive) (ps : PS) :
    doInclude env (o.withComments b) configDir file ctx stmt ps = doInclude env (o.withComments b') configDir file ctx stmt ps := rfl

theorem sim_comments (env : Env) (o : ParseOptions) : Sim env (o.withComments true) (o.withComments false) (fun _ => dropComments) where
  nil _ := rfl
  append _ := dropComments_append
  stop := rfl
  lexers := rfl
  callback := rfl
  step configDir file ctx t toks ps := by
    change StepSim dropComments (if o.combineConfigs then file else []) (if o.combineConfigs then file else []) _ _
    have hc := step_cases env (o.withComments true) configDir file ctx t toks ps
    generalize step env (o.withComments true) configDir file ctx t toks ps = s at hc ⊢
    cases hc with
    | tokErr e h => rw [(StepR.tokErr (o := o.withComments false) e h).step_eq]; exact .fail _ _ _
    | close h1 h2 => rw [(StepR.close (o := o.withComments false) h1 h2).step_eq]; exact .stop _ _
    | comment h1 h2 h3 =>
      rw [(StepR.comment (o := o.withComments false) h1 h2 h3).step_eq]
      have := StepSim.next (Φ := dropComments) (fn1 := if o.combineConfigs then file else []) (fn2 := if o.combineConfigs then file else [])
        [commentStmt (o.withComments true) file t] toks ps
      rw [show dropComments [commentStmt (o.withComments true) file t] = [] from rfl] at this
      exact this
    | premature h1 h2 h3 h4 =>
      have h4' : readArgs (o.withComments false).parseComments [] [] toks = none := by
        have := readArgs_false [] [] toks
        rw [show readArgs true [] [] toks = none from h4] at this
        exact this
      rw [(StepR.premature (o := o.withComments false) h1 h2 h3 h4').step_eq]; exact .fail _ _ _
    | mapFail args comments term rest m err R h1 h2 h3 =>
      rw [(StepR.mapFail (o := o.withComments false) args [] term rest m err R.noComments h1 h2 h3).step_eq]; exact .fail _ _ _
    | mapBad args comments term rest m err R h1 h2 h3 =>
      rw [(StepR.mapBad (o := o.withComments false) args [] term rest m err R.noComments h1 h2 h3).step_eq]
      exact .next _ _ _
    | mapOk args comments term rest m R h1 h2 =>
      rw [(StepR.mapOk (o := o.withComments false) args [] term rest m R.noComments h1 h2).step_eq]
      have := StepSim.next (Φ := dropComments) (fn1 := if o.combineConfigs then file else []) (fn2 := if o.combineConfigs then file else [])
        [{ baseStmt (o.withComments true) file t args with isMapBlockParameter := true }] rest ps
      rw [dropComments_leaf rfl rfl] at this
      exact this
    | ignored args comments term rest R h1 h2 =>
      rw [(StepR.ignored (o := o.withComments false) args [] term rest R.noComments h1 h2).step_eq]; exact .next _ _ _
    | rejectFail args comments term rest err R h1 h2 h3 h4 =>
      rw [(StepR.rejectFail (o := o.withComments false) args [] term rest err R.noComments h1 h2 h3 h4).step_eq]
      exact .fail _ _ _
    | rejectSkip args comments term rest err R h1 h2 h3 h4 h5 h6 =>
      rw [(StepR.rejectSkip (o := o.withComments false) args [] term rest err R.noComments h1 h2 h3 h4 h5 h6).step_eq]
      exact .next _ _ _
    | rejectStop args comments term rest err R h1 h2 h3 h4 h5 h6 =>
      rw [(StepR.rejectStop (o := o.withComments false) args [] term rest err R.noComments h1 h2 h3 h4 h5 h6).step_eq]
      exact .stop _ _
    | reject args comments term rest err R h1 h2 h3 h4 h5 =>
      rw [(StepR.reject (o := o.withComments false) args [] term rest err R.noComments h1 h2 h3 h4 h5).step_eq]
      exact .next _ _ _
    | panic args comments term rest R h1 h2 h3 h4 =>
      rw [(StepR.panic (o := o.withComments false) args [] term rest R.noComments h1 h2 h3 h4).step_eq]
      exact .fail _ _ _
    | inclFail args comments term rest stmt e ps' R h1 h2 h3 h4 h5 =>
      rw [(StepR.inclFail (o := o.withComments false) args [] term rest stmt e ps' R.noComments h1 h2 h3 h4 h5).step_eq]
      exact .fail _ _ _
    | simple args comments term rest stmt stmt' ps' R h1 h2 h3 h4 h5 h6 =>
      rw [(StepR.simple (o := o.withComments false) args [] term rest stmt stmt' ps' R.noComments h1 h2 h3 h4 h5 h6).step_eq]
      have := StepSim.next (Φ := dropComments) (fn1 := if o.combineConfigs then file else []) (fn2 := if o.combineConfigs then file else [])
        ([stmt'] ++ commentDirectives stmt'.line (if o.combineConfigs then file else []) comments) rest ps'
      rw [dropComments_append, dropComments_comments, dropComments_leaf (stmt_shape h4 h5).2 (stmt_shape h4 h5).1] at this
      exact this
    | block args comments term rest stmt stmt' ps' R h1 h2 h3 h4 h5 h6 =>
      rw [(StepR.block (o := o.withComments false) args [] term rest stmt stmt' ps' R.noComments h1 h2 h3 h4 h5 h6).step_eq]
      refine .block _ _ _ _ _ _ rfl (fun b => ?_)
      rw [dropComments_append, dropComments_comments, dropComments_one (by exact (stmt_shape h4 h5).2)]
      rfl

/-- A config without its comments. -/
def dropConfig (c : Config) : Config := { c with parsed := dropComments c.parsed }

theorem include_not_comment {d : Directive} (h : IsInclude d) : ¬ (d.directive = c!"#" ∧ d.comment.isSome = true) := by
  rintro ⟨h1, -⟩
  rw [h.1] at h1
  exact absurd h1 (by decide)

mutual
theorem expands_dropComments {cs : List Config} : ∀ {ds out}, Expands cs ds out → Expands (cs.map dropConfig) (dropComments ds) (dropComments out)
  | _, _, .nil => .nil
  | _, _, .keep (d := d) hn hb hds => by
    rw [dropComments_cons, dropComments_cons]
    by_cases hc : d.directive = c!"#" ∧ d.comment.isSome = true
    · rw [if_pos hc, if_pos hc]
      exact expands_dropComments hds
    · rw [if_neg hc, if_neg hc]
      exact .keep (d := { d with block := d.block.map dropComments }) hn (expandsBlock_dropComments hb) (expands_dropComments hds)
  | _, _, .incl (d := d) hn hb hi hds => by
    rw [dropComments_cons, if_neg (include_not_comment hn), dropComments_append]
    exact .incl (d := { d with block := d.block.map dropComments }) hn (expandsBlock_dropComments hb) (inlines_dropComments hi) (expands_dropComments hds)
theorem expandsBlock_dropComments {cs : List Config} : ∀ {o o'}, ExpandsBlock cs o o' →
    ExpandsBlock (cs.map dropConfig) (o.map dropComments) (o'.map dropComments)
  | _, _, .none => .none
  | _, _, .some h => .some (expands_dropComments h)
theorem inlines_dropComments {cs : List Config} : ∀ {is out}, Inlines cs is out → Inlines (cs.map dropConfig) is (dropComments out)
  | _, _, .nil => .nil
  | _, _, .cons (c := c) hi he hr => by
    rw [dropComments_append]
    exact .cons (c := dropConfig c) (by rw [List.getElem?_map, hi]; rfl) (expands_dropComments he) (inlines_dropComments hr)
end

/-- The expansion is unique. -/
theorem expands_det {cs : List Config} {ds out out' : List Directive} (h : Expands cs ds out) (h' : Expands cs ds out') : out = out' := by
  obtain ⟨n, h1⟩ := expands_run h
  obtain ⟨n', h2⟩ := expands_run h'
  have e1 := h1 (max n n') (by omega) []
  rw [h2 (max n n') (by omega) []] at e1
  cases e1; rfl

/-- Comments may be removed before or after combining. -/
theorem combined_dropComments {n m : Nat} {p q q' : Payload} (h : combined n p = .ok q) (h' : combined m p.dropComments = .ok q') :
    q' = q.dropComments := by
  cases hc : p.config with
  | nil =>
    unfold combined at h h'
    rw [hc] at h
    rw [show p.dropComments.config = [] by unfold Payload.dropComments; rw [hc]; rfl] at h'
    cases h; cases h'; rfl
  | cons c0 rest =>
    have hc' : p.dropComments.config = dropConfig c0 :: rest.map dropConfig := by unfold Payload.dropComments; rw [hc]; rfl
    obtain ⟨out, st, h1, h2, rfl⟩ := (C35_combined_iff p q c0 rest hc).mp ⟨n, h⟩
    obtain ⟨out', st', h1', h2', rfl⟩ := (C35_combined_iff _ q' _ _ hc').mp ⟨m, h'⟩
    have he := expands_det h1' (expands_dropComments h1)
    subst he
    have hst : st' = st := by
      have hiff : (∃ c ∈ p.dropComments.config, c.status = c!"failed") ↔ ∃ c ∈ p.config, c.status = c!"failed" := by
        unfold Payload.dropComments; simp
      rcases h2 with ⟨rfl, a⟩ | ⟨rfl, a⟩ <;> rcases h2' with ⟨rfl, b⟩ | ⟨rfl, b⟩
      · rfl
      · obtain ⟨c, x, y⟩ := hiff.mpr a
        exact absurd y (b c x)
      · obtain ⟨c, x, y⟩ := hiff.mp b
        exact absurd y (a c x)
      · rfl
    subst hst
    unfold Payload.dropComments
    simp only [List.flatMap_map, List.map_cons, List.map_nil]
    rfl

theorem parseRaw_ok {env : Env} {fuel : Nat} {filename : Str} {o : ParseOptions} {p : Payload} (h : parseRaw env fuel filename o = .ok p) :
    ∃ cs ps', FilesOk env o (env.dir filename) (initPS filename) cs ps' ∧ isAcyclic env ps' = false ∧ p = rawPayload ps' cs := by
  unfold parseRaw at h
  rcases parseFiles_run env o (env.dir filename) fuel (initPS filename) [] with ⟨cs, ps', h1, h2⟩ | ⟨e, ps', h1, h2⟩ | ⟨ps', h1, h2⟩
  · rw [h2] at h
    simp only at h
    cases ha : isAcyclic env ps' with
    | true => rw [ha] at h; cases h
    | false => rw [ha] at h; cases h; exact ⟨cs, ps', h1, ha, rfl⟩
  · rw [h2] at h; cases e <;> cases h
  · rw [h2] at h; cases h

/-- C21.  The payload without ParseComments is the payload with it after removing the comments. -/
theorem C21_same {env : Env} (hperm : ∀ l, (env.mapOrder l).Perm l) (fuel : Nat) (filename : Str) (o : ParseOptions) :
    Parse env fuel filename { o with parseComments := false } =
      (Parse env fuel filename { o with parseComments := true }).map Payload.dropComments := by
  change Parse env fuel filename (o.withComments false) = (Parse env fuel filename (o.withComments true)).map Payload.dropComments
  have hraw := (sim_comments env o).raw fuel filename
  cases ho : o.combineConfigs with
  | false =>
    rw [Parse_raw, Parse_raw, hraw]
    simp only [show (o.withComments false).combineConfigs = false from ho, show (o.withComments true).combineConfigs = false from ho]
    cases parseRaw env fuel filename (o.withComments true) <;> rfl
  | true =>
    rw [Parse_raw, Parse_raw]
    simp only [show (o.withComments false).combineConfigs = true from ho, show (o.withComments true).combineConfigs = true from ho, if_true]
    cases hr : parseRaw env fuel filename (o.withComments true) with
    | ok p =>
      rw [hr] at hraw
      obtain ⟨cs, ps', h1, h2, rfl⟩ := parseRaw_ok hr
      obtain ⟨cs', ps'', h1', h2', h3'⟩ := parseRaw_ok hraw
      obtain ⟨q, hq⟩ := C39_combines hperm h1 h2
      obtain ⟨q', hq'⟩ := C39_combines hperm h1' h2'
      rw [hraw]
      rw [← h3'] at hq'
      have hlen : cs'.length = cs.length := by
        have := congrArg (fun p : Payload => p.config.length) h3'
        simp only [rawPayload, List.length_map] at this
        exact this.symm
      rw [hlen] at hq'
      change combined (((rawPayload ps' cs).dropComments).config.length + 1) (rawPayload ps' cs).dropComments =
        (combined (cs.length + 1) (rawPayload ps' cs)).map Payload.dropComments
      rw [show ((rawPayload ps' cs).dropComments).config.length = cs.length from List.length_map _, hq]
      exact hq'.trans (by rw [combined_dropComments hq hq']; rfl)
    | err => rw [hraw, hr]; rfl
    | panic => rw [hraw, hr]; rfl
    | fuel => rw [hraw, hr]; rfl

/-- C21.  Without ParseComments there is no comment. -/
theorem C21_none {env : Env} {fuel : Nat} {filename : Str} {o : ParseOptions} {p : Payload} (h : Parse env fuel filename o = .ok p)
    (ho : o.parseComments = false) : ∀ c ∈ p.config, ∀ d, Within d c.parsed → ¬ IsComment d := by
  intro c hc d hd
  obtain ⟨file, inc, ctx, hn⟩ := Parse_nodes h c hc d hd
  cases hn with
  | comment line text h => rw [ho] at h; cases h
  | param => exact fun h => h.2 rfl
  | stmt => exact fun h => h.2 rfl

example : Parse (exEnv [(c!"/e/a", c!"include b;# x"), (c!"/e/b", c!"user x #y\n;")]) 3 c!"/e/a" { exOpts with combineConfigs := true, parseComments := true } =
    .ok { status := c!"ok", config := [{ file := c!"/e/a", status := c!"ok", parsed := [
      { directive := c!"user", line := 1, args := [c!"x"], file := c!"/e/b" },
      { directive := c!"#", line := 1, args := [], file := c!"/e/b", comment := some c!"y" },
      { directive := c!"#", line := 1, args := [], file := c!"/e/a", comment := some c!" x" }] }] } := by decide +kernel

example : Parse (exEnv [(c!"/e/a", c!"include b;# x"), (c!"/e/b", c!"user x #y\n;")]) 3 c!"/e/a" { exOpts with combineConfigs := true } =
    .ok { status := c!"ok", config := [{ file := c!"/e/a", status := c!"ok", parsed := [
      { directive := c!"user", line := 1, args := [c!"x"], file := c!"/e/b" }] }] } := by decide +kernel

end Verif
