import Verif.Spec.Reformat
import Verif.Proofs.Sim
import Mathlib.Data.List.Forall2
/-!
# The parser only copies lines
-/
namespace Verif
open Spec

/-! ## Directives -/

/-- A directive with another line. -/
def Directive.setLine (l : Int) (d : Directive) : Directive := { d with line := l }

theorem UpToLines.append {a b c d : List Directive} (h : UpToLines a b) (h' : UpToLines c d) : UpToLines (a ++ c) (b ++ d) := by
  induction h with
  | nil => exact h'
  | leaf hb _ ih => exact .leaf hb ih
  | node hb hc _ _ ih => exact .node hb hc ih

theorem UpToLines.single {d : Directive} (h : d.block = none) (l : Int) : UpToLines [d] [d.setLine l] := .leaf h .nil

theorem commentDirectives_lines (l l' : Int) (f : Str) (cs : List Str) : UpToLines (commentDirectives l f cs) (commentDirectives l' f cs) := by
  induction cs with
  | nil => exact .nil
  | cons c cs ih => exact .leaf rfl ih

/-! ## States -/

abbrev CErr (e e' : ConfigError) : Prop := SameErr e.error e'.error ∧ e.line.isSome = e'.line.isSome

abbrev PErr (e e' : PayloadError) : Prop := e.file = e'.file ∧ SameErr e.error e'.error ∧ e.line.isSome = e'.line.isSome

/-- A state with other errors. -/
def PS.upd (ps : PS) (ce : List ConfigError) (pe : List PayloadError) : PS := { ps with cfgErrors := ce, payErrors := pe }

/-- States that differ only in the lines of errors. -/
def PSRel (a b : PS) : Prop := ∃ ce pe, List.Forall₂ CErr a.cfgErrors ce ∧ List.Forall₂ PErr a.payErrors pe ∧ b = a.upd ce pe

theorem Spec.SameErr.line {e e' : GoErr} (h : SameErr e e') : e.line?.isSome = e'.line?.isSome := by
  cases h with
  | other => rfl
  | parse h => exact h
  | named => rfl

theorem handleError_rel {o : ParseOptions} {file : Str} {ps ps' : PS} (h : PSRel ps ps') {e e' : GoErr} (he : SameErr e e') :
    PSRel (handleError o file ps e) (handleError o file ps' e') := by
  obtain ⟨ce, pe, h1, h2, rfl⟩ := h
  refine ⟨ce ++ [⟨e'.line?, e'⟩], pe ++ [⟨file, e'.line?, e', o.errorCallback.map (fun cb => cb ps.calls e')⟩], ?_, ?_, rfl⟩
  · exact List.rel_append h1 (.cons ⟨he, he.line⟩ .nil)
  · exact List.rel_append h2 (.cons ⟨rfl, he, he.line⟩ .nil)

theorem addInclude_upd (file : Str) (ctx : Ctx) (stmt : Directive) (ps : PS) (fname : Str) (l : Int) (ce : List ConfigError) (pe : List PayloadError) :
    addInclude file ctx (stmt.setLine l) (ps.upd ce pe) fname =
        ((addInclude file ctx stmt ps fname).1.setLine l, (addInclude file ctx stmt ps fname).2.upd ce pe) ∧
      (addInclude file ctx stmt ps fname).2.cfgErrors = ps.cfgErrors ∧ (addInclude file ctx stmt ps fname).2.payErrors = ps.payErrors ∧
      (addInclude file ctx stmt ps fname).1.block = stmt.block := by
  unfold addInclude
  have e : (ps.upd ce pe).included = ps.included := rfl
  rw [e]
  cases h : ps.included.lookup fname with
  | none => exact ⟨rfl, rfl, rfl, rfl⟩
  | some i => exact ⟨rfl, rfl, rfl, rfl⟩

theorem addIncludes_upd (file : Str) (ctx : Ctx) (names : List Str) (l : Int) (ce : List ConfigError) (pe : List PayloadError) :
    ∀ (stmt : Directive) (ps : PS), addIncludes file ctx (stmt.setLine l) (ps.upd ce pe) names =
        ((addIncludes file ctx stmt ps names).1.setLine l, (addIncludes file ctx stmt ps names).2.upd ce pe) ∧
      (addIncludes file ctx stmt ps names).2.cfgErrors = ps.cfgErrors ∧ (addIncludes file ctx stmt ps names).2.payErrors = ps.payErrors ∧
      (addIncludes file ctx stmt ps names).1.block = stmt.block := by
  induction names with
  | nil => intro stmt ps; exact ⟨rfl, rfl, rfl, rfl⟩
  | cons n ns ih =>
    intro stmt ps
    obtain ⟨h1, h2, h3, h4⟩ := addInclude_upd file ctx stmt ps n l ce pe
    obtain ⟨k1, k2, k3, k4⟩ := ih (addInclude file ctx stmt ps n).1 (addInclude file ctx stmt ps n).2
    rw [addIncludes, addIncludes, h1]
    exact ⟨k1, k2.trans h2, k3.trans h3, k4.trans h4⟩

theorem PSRel.addIncludes {file : Str} {ctx : Ctx} {stmt : Directive} {ps ps' : PS} (h : PSRel ps ps') (names : List Str) (l : Int) :
    (addIncludes file ctx (stmt.setLine l) ps' names).1 = (addIncludes file ctx stmt ps names).1.setLine l ∧
      PSRel (addIncludes file ctx stmt ps names).2 (addIncludes file ctx (stmt.setLine l) ps' names).2 ∧
      (addIncludes file ctx stmt ps names).1.block = stmt.block := by
  obtain ⟨ce, pe, h1, h2, rfl⟩ := h
  obtain ⟨k1, k2, k3, k4⟩ := addIncludes_upd file ctx names l ce pe stmt ps
  rw [k1]
  exact ⟨rfl, ⟨ce, pe, by rw [k2]; exact h1, by rw [k3]; exact h2, rfl⟩, k4⟩

/-- Environments with the same names and paths whose files have tokens that differ only in lines. -/
structure EnvRel (o : ParseOptions) (env env' : Env) : Prop where
  glob : env'.glob = env.glob
  isAbs : env'.isAbs = env.isAbs
  join : env'.join = env.join
  dir : env'.dir = env.dir
  mapOrder : env'.mapOrder = env.mapOrder
  files : ∀ n f, (∃ e, env.openFile n f = .error e ∧ env'.openFile n f = .error e) ∨
    ∃ d d', env.openFile n f = .ok d ∧ env'.openFile n f = .ok d' ∧
      List.Forall₂ SameTok (lexWith (extLexersOf o.lexers) d.runes) (lexWith (extLexersOf o.lexers) d'.runes)

theorem stmtError_line (what fname : Str) (stmt : Directive) (b : Str) (l : Int) :
    SameErr (.parse (stmtError what fname stmt b)) (.parse (stmtError what fname (stmt.setLine l) b)) := .parse rfl

theorem doInclude_rel {env env' : Env} {o : ParseOptions} (hE : EnvRel o env env') (configDir file : Str) (ctx : Ctx) (stmt : Directive) (l : Int) {ps ps' : PS}
    (h : PSRel ps ps') :
    SameRes (fun d d' => d' = d.setLine l ∧ d.block = stmt.block) (doInclude env o configDir file ctx stmt ps).1 (doInclude env' o configDir file ctx (stmt.setLine l) ps').1 ∧
      PSRel (doInclude env o configDir file ctx stmt ps).2 (doInclude env' o configDir file ctx (stmt.setLine l) ps').2 := by
  unfold doInclude
  rw [hE.isAbs, hE.join, hE.glob]
  obtain ⟨ce, pe, h1, h2, rfl⟩ := h
  have h : PSRel ps (ps.upd ce pe) := ⟨ce, pe, h1, h2, rfl⟩
  have hg : (ps.upd ce pe).globs = ps.globs := rfl
  have ho : (ps.upd ce pe).opens = ps.opens := rfl
  have hg' : PSRel { ps with globs := ps.globs + 1 } { ps.upd ce pe with globs := ps.globs + 1 } := ⟨ce, pe, h1, h2, rfl⟩
  have ho' : PSRel { ps with opens := ps.opens + 1 } { ps.upd ce pe with opens := ps.opens + 1 } := ⟨ce, pe, h1, h2, rfl⟩
  change SameRes _ _ (if !o.singleFile && stmt.directive == c!"include" then _ else _ : Res Directive × PS).1 ∧
    PSRel _ (if !o.singleFile && stmt.directive == c!"include" then _ else _ : Res Directive × PS).2
  by_cases hi : (!o.singleFile && stmt.directive == c!"include") = true
  · rw [if_pos hi, if_pos hi]
    have ha : (stmt.setLine l).args = stmt.args := rfl
    rw [ha]
    cases hargs : stmt.args with
    | nil =>
      refine ⟨.err ?_, h⟩
      exact .named (e := { what := [], file := some file, line := none, statement := stmt.string, blockCtx := getLastBlock ctx.vals })
        (w := c!"invalid number of arguments in \"" ++ stmt.directive ++ c!"\" directive in " ++ file) (l := stmt.line) (l' := l)
    | cons a as =>
      simp only
      rw [hg, ho]
      generalize (if (!env.isAbs a) = true then env.join configDir a else a) = p
      by_cases hm : hasMagic p = true
      · rw [if_pos hm, if_pos hm]
        cases hgl : env.glob ps.globs p with
        | error e =>
          refine ⟨.err ?_, hg'⟩
          cases e with
          | parse e => exact .parse rfl
          | other m => exact .other
        | ok names =>
          obtain ⟨k1, k2, k3⟩ := hg'.addIncludes (file := file) (ctx := ctx) (stmt := stmt) (sortStrings names) l
          exact ⟨.ok ⟨k1, k3⟩, k2⟩
      · rw [if_neg hm, if_neg hm]
        rcases hE.files ps.opens p with ⟨e, e1, e2⟩ | ⟨d, d', e1, e2, -⟩
        · rw [e1, e2]
          simp only
          cases o.stopParsingOnError with
          | true => exact ⟨.err (stmtError_line ..), ho'⟩
          | false => exact ⟨.ok ⟨rfl, rfl⟩, handleError_rel ho' (stmtError_line ..)⟩
        · rw [e1, e2]
          obtain ⟨k1, k2, k3⟩ := ho'.addIncludes (file := file) (ctx := ctx) (stmt := stmt) [p] l
          exact ⟨.ok ⟨k1, k3⟩, k2⟩
  · rw [if_neg hi, if_neg hi]
    exact ⟨.ok ⟨rfl, rfl⟩, h⟩

/-! ## Tokens -/

theorem Spec.SameTok.is {t t' : Tok} (h : SameTok t t') {v : Str} (hv : v = c!"{" ∨ v = c!"}") : t'.is v = t.is v := by
  unfold Tok.is
  rw [← h.value]
  rcases h.quoted with e | hm
  · rw [e]
  · have : (t.value == v) = false := by
      rw [beq_eq_false_iff_ne]
      rintro rfl
      exact hm (by rcases hv with h | h <;> simp [SpecialWord, h])
    simp [this]
theorem Spec.SameTok.isTerm {t t' : Tok} (h : SameTok t t') : t'.isTerm = t.isTerm := by
  unfold Tok.isTerm
  rw [← h.value]
  rcases h.quoted with e | hm
  · rw [e]
  · simp only [SpecialWord, not_or] at hm
    rw [show (t.value != c!"{" && t.value != c!";" && t.value != c!"}") = true by simp [bne_iff_ne, hm.1, hm.2.1, hm.2.2.1], Bool.or_true, Bool.or_true]
theorem Spec.SameTok.isCommentTok {t t' : Tok} (h : SameTok t t') : t'.isCommentTok = t.isCommentTok := by
  unfold Tok.isCommentTok
  rw [← h.value]
  rcases h.quoted with e | hm
  · rw [e]
  · have : hasPrefix t.value c!"#" = false := by
      unfold hasPrefix
      cases hv : t.value with
      | nil => rfl
      | cons c cs =>
        simp only [SpecialWord, not_or, hv, List.head?_cons, Option.some.injEq] at hm
        have : ('#' == c) = false := by rw [beq_eq_false_iff_ne]; exact fun h => hm.2.2.2 h.symm
        simp [List.isPrefixOf, this]
    simp [this]
/-- Tokens that end a list of arguments have no quotes. -/
theorem Spec.SameTok.term {t t' : Tok} (h : SameTok t t') (ht : t.isTerm = true) : t.quoted = t'.quoted := by
  have ht' := h.isTerm.trans ht
  unfold Tok.isTerm at ht ht'
  simp only [Bool.not_eq_true', Bool.or_eq_false_iff] at ht ht'
  rw [ht.1, ht'.1]
theorem Spec.SameTok.isSome {t t' : Tok} (h : SameTok t t') : t'.error.isSome = t.error.isSome := by
  have := h.error
  cases he : t.error <;> cases he' : t'.error <;> rw [he, he'] at this <;> first | rfl | cases this

abbrev SameToks := List.Forall₂ SameTok

theorem readArgs_rel (pc : Bool) {toks toks' : List Tok} (h : SameToks toks toks') : ∀ (args comments : List Str),
    readArgs pc args comments toks = none ∧ readArgs pc args comments toks' = none ∨
    ∃ a c t t' r r', readArgs pc args comments toks = some (a, c, t, r) ∧ readArgs pc args comments toks' = some (a, c, t', r') ∧ SameTok t t' ∧ t.isTerm = true ∧ SameToks r r' := by
  induction h with
  | nil => intro args comments; exact Or.inl ⟨rfl, rfl⟩
  | @cons t t' toks toks' ht htoks ih =>
    intro args comments
    unfold readArgs
    rw [ht.isTerm, ht.isCommentTok, ← ht.value]
    split
    · exact Or.inr ⟨_, _, _, _, _, _, rfl, rfl, ht, ‹_›, htoks⟩
    · split
      · exact ih _ _
      · split
        · exact ih _ _
        · exact ih _ _

theorem consume_rel {toks toks' : List Tok} (h : SameToks toks toks') : ∀ n, SameToks (consume n toks) (consume n toks') := by
  induction h with
  | nil => intro n; exact .nil
  | @cons t t' toks toks' ht htoks ih =>
    intro n
    unfold consume
    rw [ht.is (.inr rfl), ht.is (.inl rfl), ht.isSome]
    split
    · cases n with
      | zero => exact htoks
      | succ n => exact ih n
    · split
      · exact ih _
      · exact ih _

theorem skipBlock_rel {t t' : Tok} (ht : SameTok t t') {toks toks' : List Tok} (h : SameToks toks toks') : SameToks (skipBlock t toks) (skipBlock t' toks') := by
  unfold skipBlock
  rw [ht.is (.inl rfl)]
  split
  · exact consume_rel h 0
  · exact h

theorem baseStmt_rel {o : ParseOptions} {file : Str} {t t' : Tok} (h : SameTok t t') (args : List Str) :
    baseStmt o file t' args = (baseStmt o file t args).setLine t'.line := by
  unfold baseStmt Directive.setLine
  rw [h.value]

theorem checkMasks_setLine (d : Directive) (term : Str) (masks : List Nat) (l : Int) : ∀ what, checkMasks (d.setLine l) term what masks = checkMasks d term what masks := by
  induction masks with
  | nil => intro what; rfl
  | cons m ms ih =>
    intro what
    unfold checkMasks
    simp only [ih]
    rfl

theorem analyze_setLine (file : Str) (d : Directive) (term : Str) (ctx : List Str) (o : ParseOptions) (l : Int) :
    analyze file (d.setLine l) term ctx o = (analyze file d term ctx o).map fun e => { e with line := some l } := by
  unfold analyze
  simp only [checkMasks_setLine, show (d.setLine l).directive = d.directive from rfl]
  cases contexts.lookup (ctxKey ctx) <;> cases lookupMasks o d.directive <;> cases o.errorOnUnknownDirectives <;> simp only [Option.isNone, Bool.and_self, Bool.and_false,
    Bool.and_true, Bool.false_eq_true, if_false, if_true, Option.map_none, Option.map_some] <;> try rfl
  all_goals
    rename_i cur masks
    generalize (if o.skipDirectiveContextCheck = true then masks else masks.filter fun mask => (mask &&& cur) != 0) = ms
    by_cases h1 : (!o.skipDirectiveContextCheck && ms.length == 0) = true
    · rw [if_pos h1, if_pos h1]; rfl
    · rw [if_neg h1, if_neg h1]
      by_cases h2 : o.skipDirectiveArgsCheck = true
      · rw [if_pos h2, if_pos h2]; rfl
      · rw [if_neg h2, if_neg h2]
        cases checkMasks d term [] ms <;> rfl

theorem analyze_error_line {file : Str} {d : Directive} {term : Str} {ctx : List Str} {o : ParseOptions} {e : ParseError} (h : analyze file d term ctx o = some e) :
    e.line = some d.line := by
  have := analyze_setLine file d term ctx o d.line
  have e1 : d.setLine d.line = d := by cases d; rfl
  rw [e1, h] at this
  have := Option.some.inj this
  rw [this]

theorem analyzeMapBody_setLine (file : Str) (d : Directive) (term m : Str) (l : Int) :
    analyzeMapBody file (d.setLine l) term m = (analyzeMapBody file d term m).map fun e => { e with line := some l } := by
  unfold analyzeMapBody
  cases mapBodies.lookup m with
  | none => rfl
  | some ms =>
    simp only
    split
    · rfl
    · rw [show (d.setLine l).directive = d.directive from rfl]
      cases ms.special.lookup d.directive with
      | none => simp only [show (d.setLine l).args = d.args from rfl]; split <;> rfl
      | some k => simp only [show (d.setLine l).args = d.args from rfl]; split <;> rfl

theorem analyzeMapBody_error_line {file : Str} {d : Directive} {term m : Str} {e : ParseError} (h : analyzeMapBody file d term m = some e) :
    e.line = some d.line := by
  have := analyzeMapBody_setLine file d term m d.line
  have e1 : d.setLine d.line = d := by cases d; rfl
  rw [e1, h] at this
  have := Option.some.inj this
  rw [this]

theorem prepareIfArgs_setLine (d : Directive) (l : Int) : prepareIfArgs (d.setLine l) = (prepareIfArgs d).map (Directive.setLine l) := by
  obtain ⟨dd, dl, dargs, df, dincl, dblock, dcomm, dmap⟩ := d
  unfold prepareIfArgs
  simp only [Directive.setLine]
  cases dargs.head? with
  | none => rfl
  | some a =>
    cases dargs.getLast? with
    | none => rfl
    | some b =>
      simp only
      by_cases h : (hasPrefix a c!"(" && hasSuffix b c!")") = true
      · simp only [h, if_true]
        rw [apply_ite (Option.map (Directive.setLine l))]
        rfl
      · rw [if_neg h, if_neg h]
        rfl

theorem prepIf_setLine (d : Directive) (l : Int) : prepIf (d.setLine l) = (prepIf d).map (Directive.setLine l) := by
  unfold prepIf
  rw [show (d.setLine l).directive = d.directive from rfl]
  split
  · exact prepareIfArgs_setLine d l
  · rfl

theorem prepIf_block {d d' : Directive} (h : prepIf d = some d') : d'.block = d.block := by
  rw [prepIf_some h]

/-! ## Rounds -/

/-- Rounds that differ only in lines. -/
inductive StepLine : Step → Step → Prop
  | stop {toks toks' ps ps'} : SameToks toks toks' → PSRel ps ps' → StepLine (.stop toks ps) (.stop toks' ps')
  | fail {e e' toks toks' ps ps'} : Option.Rel SameErr e e' → PSRel ps ps' → StepLine (.fail e toks ps) (.fail e' toks' ps')
  | next {new new' toks toks' ps ps'} : UpToLines new new' → SameToks toks toks' → PSRel ps ps' → StepLine (.next new toks ps) (.next new' toks' ps')
  | block {stmt l comments toks toks' ps ps'} : SameToks toks toks' → PSRel ps ps' → StepLine (.block stmt comments toks ps) (.block (Directive.setLine l stmt) comments toks' ps')

theorem Tok.error_rel {t t' : Tok} (h : SameTok t t') : t.error = none ∧ t'.error = none ∨ ∃ e e', t.error = some e ∧ t'.error = some e' ∧ SameErr e e' := by
  have := h.error
  cases he : t.error <;> cases he' : t'.error <;> rw [he, he'] at this
  · exact Or.inl ⟨rfl, rfl⟩
  · cases this
  · cases this
  · cases this with
    | some h => exact Or.inr ⟨_, _, rfl, rfl, h⟩

theorem tokenError_rel {t t' : Tok} {e e' : GoErr} (h : SameErr e e') (file : Str) (ctx : List Str) : SameErr (tokenError file ctx t e) (tokenError file ctx t' e') := by
  cases h with
  | other => exact .parse rfl
  | parse h => exact .parse h
  | @named e w l l' => exact .named (e := { e with file := some file, blockCtx := getLastBlock ctx })

theorem step_rel {env env' : Env} {o : ParseOptions} (hE : EnvRel o env env') (configDir file : Str) (ctx : Ctx) {t t' : Tok} {toks toks' : List Tok} {ps ps' : PS}
    (ht : SameTok t t') (htoks : SameToks toks toks') (h : PSRel ps ps') :
    StepLine (step env o configDir file ctx t toks ps) (step env' o configDir file ctx t' toks' ps') := by
  unfold step
  rcases Tok.error_rel ht with ⟨e1, e2⟩ | ⟨e, e', e1, e2, he⟩
  · rw [e1, e2]
    simp only
    rw [ht.is (.inr rfl), ht.isCommentTok]
    by_cases hc : t.is c!"}" = true
    · rw [if_pos hc, if_pos hc]
      exact .stop htoks h
    rw [if_neg hc, if_neg hc]
    by_cases hco : t.isCommentTok = true
    · rw [if_pos hco, if_pos hco]
      refine .next ?_ htoks h
      cases o.parseComments with
      | false => exact .nil
      | true =>
        have : commentStmt o file t' = (commentStmt o file t).setLine t'.line := by
          unfold commentStmt Directive.setLine; rw [ht.value]
        rw [if_pos rfl, if_pos rfl, this]
        exact UpToLines.single rfl _
    rw [if_neg hco, if_neg hco]
    rcases readArgs_rel o.parseComments htoks [] [] with ⟨r1, r2⟩ | ⟨args, comments, term, term', rest, rest', r1, r2, hterm, hisTerm, hrest⟩
    · rw [r1, r2]
      exact .fail (.some (.parse rfl)) h
    rw [r1, r2]
    simp only
    rw [baseStmt_rel ht]
    have hbase : (baseStmt o file t args).block = none := rfl
    generalize baseStmt o file t args = stmt at hbase ⊢
    unfold stepStmt
    have hdir : (stmt.setLine t'.line).directive = stmt.directive := rfl
    cases mapCtx ctx.vals with
    | some m =>
      simp only
      rw [analyzeMapBody_setLine, ← hterm.value]
      cases ha : analyzeMapBody file stmt term.value m with
      | some err =>
        have hs : SameErr (.parse err) (.parse { err with line := some t'.line }) := .parse (by rw [analyzeMapBody_error_line ha]; rfl)
        simp only [Option.map_some]
        split
        · exact .fail (.some hs) h
        · exact .next .nil (skipBlock_rel hterm hrest) (handleError_rel h hs)
      | none =>
        simp only [Option.map_none]
        exact .next (.leaf (d := { stmt with isMapBlockParameter := true }) hbase .nil) hrest h
    | none =>
      simp only
      rw [hdir]
      by_cases hig : contains o.ignoreDirectives stmt.directive = true
      · rw [if_pos hig, if_pos hig]
        exact .next .nil (skipBlock_rel hterm hrest) h
      rw [if_neg hig, if_neg hig, analyze_setLine, ← hterm.value]
      cases ha : analyze file stmt term.value ctx.vals o with
      | some err =>
        have hs : SameErr (.parse err) (.parse { err with line := some t'.line }) := .parse (by rw [analyze_error_line ha]; rfl)
        simp only [Option.map_some]
        rw [← hterm.term hisTerm]
        split
        · split
          · split
            · exact .next .nil (consume_rel hrest 0) (handleError_rel h hs)
            · exact .stop hrest (handleError_rel h hs)
          · exact .next .nil hrest (handleError_rel h hs)
        · exact .fail (.some hs) h
      | none =>
        simp only [Option.map_none]
        rw [prepIf_setLine]
        cases hp : prepIf stmt with
        | none => exact .fail .none h
        | some s1 =>
          simp only [Option.map_some]
          have hb1 := (prepIf_block hp).trans hbase
          obtain ⟨k1, k2⟩ := doInclude_rel hE configDir file ctx s1 t'.line h
          generalize doInclude env o configDir file ctx s1 ps = r at k1 k2 ⊢
          generalize doInclude env' o configDir file ctx (s1.setLine t'.line) ps' = r' at k1 k2 ⊢
          obtain ⟨r, p⟩ := r
          obtain ⟨r', p'⟩ := r'
          simp only at k1 k2
          cases k1 with
          | ok hk =>
            obtain ⟨rfl, hk⟩ := hk
            simp only
            rw [hterm.is (.inl rfl)]
            split
            · exact .block hrest k2
            · exact .next (UpToLines.append (UpToLines.single (hk.trans hb1) _) (commentDirectives_lines ..)) hrest k2
          | err hk => exact .fail (.some hk) k2
          | panic => exact .fail .none k2
          | fuel => exact .fail .none k2
  · rw [e1, e2]
    exact .fail (.some (tokenError_rel he ..)) h

/-! ## Files -/

theorem enterBlockCtx_rel (stmt : Directive) (l : Int) (ctx : Ctx) {ps ps' : PS} (h : PSRel ps ps') :
    (enterBlockCtx (stmt.setLine l) ctx ps').1 = (enterBlockCtx stmt ctx ps).1 ∧ PSRel (enterBlockCtx stmt ctx ps).2 (enterBlockCtx (stmt.setLine l) ctx ps').2 := by
  obtain ⟨ce, pe, h1, h2, rfl⟩ := h
  unfold enterBlockCtx
  simp only [show (stmt.setLine l).directive = stmt.directive from rfl]
  split
  · exact ⟨rfl, ce, pe, h1, h2, rfl⟩
  · split
    · exact ⟨rfl, ce, pe, h1, h2, rfl⟩
    · exact ⟨rfl, ce, pe, h1, h2, rfl⟩

/-- Results of `parse` that differ only in lines. -/
def OutRel (r r' : Res (List Directive) × List Tok × PS) : Prop :=
  SameRes UpToLines r.1 r'.1 ∧ ((∃ a, r.1 = .ok a) → SameToks r.2.1 r'.2.1) ∧ PSRel r.2.2 r'.2.2

theorem parse_rel {env env' : Env} {o : ParseOptions} (hE : EnvRel o env env') (configDir file : Str) (fuel : Nat) : ∀ (ctx : Ctx) {toks toks' : List Tok}
    {parsed parsed' : List Directive} {ps ps' : PS}, SameToks toks toks' → UpToLines parsed parsed' → PSRel ps ps' →
    OutRel (parse env o configDir file fuel ctx toks parsed ps) (parse env' o configDir file fuel ctx toks' parsed' ps') := by
  induction fuel with
  | zero => intro ctx toks toks' parsed parsed' ps ps' h1 h2 h3; exact ⟨.fuel, fun _ => h1, h3⟩
  | succ fuel ih =>
    intro ctx toks toks' parsed parsed' ps ps' h1 h2 h3
    cases h1 with
    | nil => exact ⟨.ok h2, fun _ => .nil, h3⟩
    | @cons t t' toks toks' ht htoks =>
      rw [parse_step, parse_step]
      have hs := step_rel hE configDir file ctx ht htoks h3
      generalize step env o configDir file ctx t toks ps = s at hs ⊢
      generalize step env' o configDir file ctx t' toks' ps' = s' at hs ⊢
      cases hs with
      | stop k1 k2 => exact ⟨.ok h2, fun _ => k1, k2⟩
      | fail k1 k2 =>
        cases k1 with
        | none => exact ⟨.panic, fun ⟨_, h⟩ => (by cases h), k2⟩
        | some k1 => exact ⟨.err k1, fun ⟨_, h⟩ => (by cases h), k2⟩
      | next k1 k2 k3 => exact ih ctx k2 (UpToLines.append h2 k1) k3
      | @block stmt l comments toks1 toks1' ps1 ps1' k1 k2 =>
        simp only
        obtain ⟨e1, e2⟩ := enterBlockCtx_rel stmt l ctx k2
        rw [e1]
        obtain ⟨i1, i2, i3⟩ := ih (enterBlockCtx stmt ctx ps1).1 k1 .nil e2
        generalize parse env o configDir file fuel (enterBlockCtx stmt ctx ps1).1 toks1 [] (enterBlockCtx stmt ctx ps1).2 = r at i1 i2 i3 ⊢
        generalize parse env' o configDir file fuel (enterBlockCtx stmt ctx ps1).1 toks1' [] (enterBlockCtx (stmt.setLine l) ctx ps1').2 = r' at i1 i2 i3 ⊢
        obtain ⟨r, u, p⟩ := r
        obtain ⟨r', u', p'⟩ := r'
        simp only at i1 i2 i3
        cases i1 with
        | @ok b b' hb =>
          simp only
          refine ih ctx (i2 ⟨_, rfl⟩) (UpToLines.append (UpToLines.append h2 ?_) (commentDirectives_lines ..)) i3
          exact .node (d := { stmt with block := some b }) (line := l) rfl hb .nil
        | err k => exact ⟨.err k, fun ⟨_, h⟩ => (by cases h), i3⟩
        | panic => exact ⟨.panic, fun ⟨_, h⟩ => (by cases h), i3⟩
        | fuel => exact ⟨.fuel, fun ⟨_, h⟩ => (by cases h), i3⟩

theorem parseFiles_rel {env env' : Env} {o : ParseOptions} (hE : EnvRel o env env') (configDir : Str) (fuel : Nat) : ∀ {ps ps' : PS} {cs cs' : List Config},
    PSRel ps ps' → List.Forall₂ SameConfig cs cs' →
    SameRes (List.Forall₂ SameConfig) (parseFiles env o configDir fuel ps cs).1 (parseFiles env' o configDir fuel ps' cs').1 ∧
      PSRel (parseFiles env o configDir fuel ps cs).2 (parseFiles env' o configDir fuel ps' cs').2 := by
  induction fuel with
  | zero => intro ps ps' cs cs' h1 h2; exact ⟨.fuel, h1⟩
  | succ fuel ih =>
    intro ps ps' cs cs' h1 h2
    obtain ⟨ce, pe, c1, c2, rfl⟩ := h1
    unfold parseFiles
    rw [show (ps.upd ce pe).includes = ps.includes from rfl, show (ps.upd ce pe).opens = ps.opens from rfl]
    cases hi : ps.includes with
    | nil => exact ⟨.ok h2, ce, pe, c1, c2, rfl⟩
    | cons incl rest =>
      simp only
      rcases hE.files ps.opens incl.path with ⟨e, e1, e2⟩ | ⟨d, d', e1, e2, ht⟩
      · rw [e1, e2]
        refine ⟨.err ?_, ce, pe, c1, c2, rfl⟩
        cases e with
        | parse e => exact .parse rfl
        | other m => exact .other
      · rw [e1, e2]
        simp only
        rw [← ht.length_eq]
        generalize (lexWith (extLexersOf o.lexers) d.runes).length + 1 = n
        obtain ⟨i1, -, i3⟩ := parse_rel hE configDir incl.path n incl.ctx (ps := { ps with includes := rest, opens := ps.opens + 1, cfgStatus := c!"ok", cfgErrors := [] })
          (ps' := { ps.upd ce pe with includes := rest, opens := ps.opens + 1, cfgStatus := c!"ok", cfgErrors := [] }) ht .nil ⟨[], pe, .nil, c2, rfl⟩
        generalize parse env o configDir incl.path n incl.ctx (lexWith (extLexersOf o.lexers) d.runes) [] _ = r at i1 i3 ⊢
        generalize parse env' o configDir incl.path n incl.ctx (lexWith (extLexersOf o.lexers) d'.runes) [] _ = r' at i1 i3 ⊢
        obtain ⟨r, u, p⟩ := r
        obtain ⟨r', u', p'⟩ := r'
        simp only at i1 i3
        cases i1 with
        | @ok b b' hb =>
          simp only
          refine ih i3 (List.rel_append h2 (.cons ?_ .nil))
          obtain ⟨ce', pe', k1, k2, rfl⟩ := i3
          exact ⟨rfl, rfl, k1, hb⟩
        | @err e e' k =>
          simp only
          cases o.stopParsingOnError with
          | true => exact ⟨.err k, i3⟩
          | false =>
            simp only [Bool.false_eq_true, if_false]
            have i4 := handleError_rel (o := o) (file := incl.path) i3 k
            refine ih i4 (List.rel_append h2 (.cons ?_ .nil))
            obtain ⟨ce', pe', k1, k2, k3⟩ := i4
            rw [k3]
            exact ⟨rfl, rfl, k1, .nil⟩
        | panic => exact ⟨.panic, i3⟩
        | fuel => exact ⟨.fuel, i3⟩

/-! ## Combining -/

theorem Spec.SameRes.bind {α β γ δ : Type} {R : α → β → Prop} {S : γ → δ → Prop} {r : Res α} {r' : Res β} {f : α → Res γ} {g : β → Res δ} (h : SameRes R r r')
    (hf : ∀ a b, R a b → SameRes S (f a) (g b)) : SameRes S (r.bind f) (r'.bind g) := by
  cases h with
  | ok h => exact hf _ _ h
  | err h => exact .err h
  | panic => exact .panic
  | fuel => exact .fuel

section
variable {cs cs' : List Config} {inner inner' : Str → List Directive → Res (List Directive)}

theorem expandIncludes_rel (hcs : List.Forall₂ SameConfig cs cs') (hin : ∀ f ds ds', UpToLines ds ds' → SameRes UpToLines (inner f ds) (inner' f ds')) (f : Str)
    {d d' : Directive} (hd : d'.string = d.string) (is : List Int) : SameRes UpToLines (expandIncludes cs inner f d is) (expandIncludes cs' inner' f d' is) := by
  induction is with
  | nil => exact .ok .nil
  | cons i is ih =>
    unfold expandIncludes
    rw [← hcs.length_eq]
    split
    · refine .err ?_
      unfold indexError
      rw [hd]
      exact .parse rfl
    · split
      · exact .panic
      · have := List.forall₂_iff_get.mp hcs
        cases hc : cs[i.toNat]? with
        | none =>
          have : cs'[i.toNat]? = none := by rw [List.getElem?_eq_none_iff, ← hcs.length_eq]; exact List.getElem?_eq_none_iff.mp hc
          rw [this]
          exact .panic
        | some c =>
          obtain ⟨hl, hc⟩ := List.getElem?_eq_some_iff.mp hc
          have hl' : i.toNat < cs'.length := by rw [← hcs.length_eq]; exact hl
          have hrel := this.2 i.toNat hl hl'
          rw [List.getElem?_eq_getElem hl']
          simp only [List.get_eq_getElem] at hrel
          rw [hc] at hrel
          simp only
          rw [← hrel.file]
          exact (hin _ _ _ hrel.parsed).bind fun a b hab => ih.bind fun a' b' hab' => .ok (UpToLines.append hab hab')

theorem expandList_rel (hcs : List.Forall₂ SameConfig cs cs') (hin : ∀ f ds ds', UpToLines ds ds' → SameRes UpToLines (inner f ds) (inner' f ds')) (f : Str)
    {ds ds' : List Directive} (h : UpToLines ds ds') : SameRes UpToLines (expandList cs inner f ds) (expandList cs' inner' f ds') := by
  induction h with
  | nil => exact .ok .nil
  | @leaf d l ds es hb _ ih =>
    rw [expandList_cons, expandList_cons]
    refine SameRes.bind (R := UpToLines) ?_ fun a b hab => ih.bind fun a' b' hab' => .ok (UpToLines.append hab hab')
    rw [expandDir_eq, expandDir_eq]
    simp only [hb]
    rw [expandOpt, expandOpt]
    simp only [Res.bind]
    have e2 : ({ d with line := l, block := none } : Directive).isInclude = d.isInclude := rfl
    rw [e2]
    split
    · exact .ok (.leaf (d := { d with block := none }) rfl .nil)
    · refine expandIncludes_rel hcs hin f ?_ _
      rfl
  | @node d l b c ds es hb _ _ ihb ih =>
    rw [expandList_cons, expandList_cons]
    refine SameRes.bind (R := UpToLines) ?_ fun a b hab => ih.bind fun a' b' hab' => .ok (UpToLines.append hab hab')
    rw [expandDir_eq, expandDir_eq]
    simp only [hb]
    rw [expandOpt, expandOpt]
    refine SameRes.bind (R := fun x y => ∃ u v, x = some u ∧ y = some v ∧ UpToLines u v) (ihb.bind fun u v huv => .ok ⟨u, v, rfl, rfl, huv⟩) ?_
    rintro _ _ ⟨u, v, rfl, rfl, huv⟩
    have e2 : ({ d with line := l, block := some c } : Directive).isInclude = d.isInclude := rfl
    rw [e2]
    split
    · exact .ok (.node (d := { d with block := some u }) rfl huv .nil)
    · refine expandIncludes_rel hcs hin f ?_ _
      unfold Directive.string
      have : ((some v : Option (List Directive)).getD []).length = ((some u : Option (List Directive)).getD []).length := by
        have : ∀ {u v}, UpToLines u v → v.length = u.length := by
          intro u v h
          induction h with
          | nil => rfl
          | leaf _ _ ih => simp [ih]
          | node _ _ _ _ ih => simp [ih]
        exact this huv
      simp only [this]
end

theorem performIncludes_rel {cs cs' : List Config} (hcs : List.Forall₂ SameConfig cs cs') (fuel : Nat) : ∀ f ds ds', UpToLines ds ds' →
    SameRes UpToLines (performIncludes cs fuel f ds) (performIncludes cs' fuel f ds') := by
  induction fuel with
  | zero => intro f ds ds' _; exact .fuel
  | succ fuel ih => intro f ds ds' h; exact expandList_rel hcs ih f h

theorem combined_rel {p p' : Payload} (h : SamePayload p p') (fuel : Nat) : SameRes SamePayload (combined fuel p) (combined fuel p') := by
  have hst : p'.config.any (fun c => c.status == c!"failed") = p.config.any (fun c => c.status == c!"failed") := by
    have := h.config
    generalize p.config = a at this ⊢
    generalize p'.config = b at this ⊢
    induction this with
    | nil => rfl
    | cons h _ ih => rw [List.any_cons, List.any_cons, ih, h.status]
  have herr : List.Forall₂ CErr (p.config.flatMap (·.errors)) (p'.config.flatMap (·.errors)) := by
    have := h.config
    generalize p.config = a at this ⊢
    generalize p'.config = b at this ⊢
    induction this with
    | nil => exact .nil
    | cons h _ ih => rw [List.flatMap_cons, List.flatMap_cons]; exact List.rel_append h.errors ih
  have hc := h.config
  unfold combined
  rw [hst]
  generalize p.config.flatMap (·.errors) = ea at herr ⊢
  generalize p'.config.flatMap (·.errors) = eb at herr ⊢
  generalize p.config.any (fun c => c.status == c!"failed") = bad
  generalize hA : p.config = a at hc
  generalize hB : p'.config = b at hc
  cases hc with
  | nil => exact .ok h
  | @cons c0 c0' r r' h0 hr =>
    simp only
    rw [← h0.file]
    refine (performIncludes_rel (.cons h0 hr) fuel _ _ _ h0.parsed).bind fun u v huv => .ok ⟨?_, h.errors, .cons ⟨rfl, rfl, herr, huv⟩ .nil⟩
    rw [h.status]

theorem Parse_rel {env env' : Env} {o : ParseOptions} (hE : EnvRel o env env') (fuel : Nat) (filename : Str) :
    SameRes SamePayload (Parse env fuel filename o) (Parse env' fuel filename o) := by
  unfold Parse
  rw [hE.dir]
  obtain ⟨h1, h2⟩ := parseFiles_rel hE (env.dir filename) fuel (ps := initPS filename) (ps' := initPS filename) ⟨[], [], .nil, .nil, rfl⟩ .nil
  generalize parseFiles env o (env.dir filename) fuel (initPS filename) [] = r at h1 h2 ⊢
  generalize parseFiles env' o (env.dir filename) fuel (initPS filename) [] = r' at h1 h2 ⊢
  obtain ⟨r, p⟩ := r
  obtain ⟨r', p'⟩ := r'
  simp only at h1 h2
  obtain ⟨ce, pe, k1, k2, rfl⟩ := h2
  cases h1 with
  | @ok a b hab =>
    simp only
    have : isAcyclic env' (p.upd ce pe) = isAcyclic env p := by
      unfold isAcyclic
      rw [hE.mapOrder]
      rfl
    rw [this, ← hab.length_eq]
    split
    · exact .err .other
    · have hp : SamePayload ⟨p.payStatus, p.payErrors, a⟩ ⟨p.payStatus, pe, b⟩ := ⟨rfl, k2, hab⟩
      split
      · exact combined_rel hp _
      · exact .ok hp
  | err k => exact .err k
  | panic => exact .panic
  | fuel => exact .fuel

/-! ## Texts -/

theorem specToks_rel {a b : List Item} (h : SameItems a b) : ∀ (line start line' start' : Int) (depth : Nat) (dup glued glued' : Bool),
    SameToks (specToks line start depth dup glued a) (specToks line' start' depth dup glued' b) := by
  induction h with
  | nil =>
    intro line start line' start' depth dup glued glued'
    unfold specToks
    split
    · exact .cons ⟨rfl, .inl rfl, .some (.parse rfl)⟩ .nil
    · exact .nil
  | left _ ih => intro line start line' start' depth dup glued glued'; rw [specToks]; exact ih ..
  | @right c a b _ ih => intro line start line' start' depth dup glued glued'; rw [specToks.eq_def _ _ _ _ _ (.space c :: b)]; exact ih ..
  | @special c a b _ ih =>
    intro line start line' start' depth dup glued glued'
    rw [specToks, specToks]
    split
    · exact .cons ⟨rfl, .inl rfl, .some (.parse rfl)⟩ .nil
    · split
      · exact .cons ⟨rfl, .inl rfl, .some (.parse rfl)⟩ .nil
      · exact .cons ⟨rfl, .inl rfl, .none⟩ (ih ..)
  | word _ ih => intro line start line' start' depth dup glued glued'; rw [specToks, specToks]; exact .cons ⟨rfl, .inl rfl, .none⟩ (ih ..)
  | @quoted q us q' us' closed a b hv _ ih =>
    intro line start line' start' depth dup glued glued'
    rw [specToks, specToks]
    rw [← hv]
    refine List.rel_append ?_ (ih ..)
    split
    · exact .cons ⟨rfl, .inl rfl, .none⟩ .nil
    · exact .nil
  | @bare q us us' a b hv hm _ ih =>
    intro line start line' start' depth dup glued glued'
    rw [specToks, specToks]
    rw [hv, if_pos (.inl rfl)]
    exact .cons ⟨rfl, .inr hm, .none⟩ (ih ..)
  | @dressed us q us' a b hv hm _ ih =>
    intro line start line' start' depth dup glued glued'
    rw [specToks, specToks]
    rw [← hv, if_pos (.inl rfl)]
    exact .cons ⟨rfl, .inr hm, .none⟩ (ih ..)
  | comment _ ih => intro line start line' start' depth dup glued glued'; rw [specToks, specToks]; exact .cons ⟨rfl, .inl rfl, .none⟩ (ih ..)

end Verif
