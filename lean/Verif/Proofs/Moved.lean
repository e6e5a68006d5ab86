import Verif.Spec.Moved
import Verif.Proofs.Reformat
import Verif.Proofs.Causes
/-!
# The parser only copies paths
-/
namespace Verif
open Spec

/-! ## Directives -/

theorem movedList_append (g : Str → Str) (a b : List Directive) : movedList g (a ++ b) = movedList g a ++ movedList g b := by
  induction a with
  | nil => rfl
  | cons d ds ih => simp only [List.cons_append, movedList, ih]

theorem movedList_length (g : Str → Str) (ds : List Directive) : (movedList g ds).length = ds.length := by
  induction ds with
  | nil => rfl
  | cons d ds ih => simp only [movedList, List.length_cons, ih]

section fields
variable (g : Str → Str) (d : Directive)
theorem moved_directive : (moved g d).directive = d.directive := by cases d; rfl
theorem moved_args : (moved g d).args = d.args := by cases d; rfl
theorem moved_line : (moved g d).line = d.line := by cases d; rfl
theorem moved_includes : (moved g d).includes = d.includes := by cases d; rfl
theorem moved_block : (moved g d).block = movedOpt g d.block := by cases d; rfl
theorem moved_isInclude : (moved g d).isInclude = d.isInclude := by cases d; rfl
theorem moved_string : (moved g d).string = d.string := by
  obtain ⟨dd, dl, dargs, df, di, dblock, dc, dm⟩ := d
  cases dblock with
  | none => rfl
  | some b => simp only [moved, movedOpt, Directive.string, Option.getD_some, movedList_length]
end fields

/-- What file names in directives become: they are set only with `CombineConfigs`. -/
def tagOf (o : ParseOptions) (ρ : Str → Str) : Str → Str := if o.combineConfigs then ρ else id

theorem tagOf_file (o : ParseOptions) (ρ : Str → Str) (file : Str) :
    tagOf o ρ (if o.combineConfigs then file else []) = (if o.combineConfigs then ρ file else []) := by
  unfold tagOf
  cases o.combineConfigs <;> rfl

theorem baseStmt_moved (o : ParseOptions) (ρ : Str → Str) (file : Str) (t : Tok) (args : List Str) :
    baseStmt o (ρ file) t args = moved (tagOf o ρ) (baseStmt o file t args) := by
  unfold baseStmt
  simp only [moved, movedOpt, tagOf_file]

theorem commentStmt_moved (o : ParseOptions) (ρ : Str → Str) (file : Str) (t : Tok) :
    commentStmt o (ρ file) t = moved (tagOf o ρ) (commentStmt o file t) := by
  unfold commentStmt
  simp only [moved, movedOpt, tagOf_file]

theorem commentDirectives_moved (o : ParseOptions) (ρ : Str → Str) (file : Str) (line : Int) (cs : List Str) :
    commentDirectives line (if o.combineConfigs then ρ file else []) cs = movedList (tagOf o ρ) (commentDirectives line (if o.combineConfigs then file else []) cs) := by
  unfold commentDirectives
  induction cs with
  | nil => rfl
  | cons c cs ih =>
    simp only [List.map_cons, movedList, moved, movedOpt, tagOf_file]
    rw [ih]

/-! ## Checks -/

/-- An error in a file at its new path. -/
def mvErr (ρ : Str → Str) (e : ParseError) : ParseError := { e with file := e.file.map ρ }

theorem stmtError_moved (ρ g : Str → Str) (what file : Str) (d : Directive) (b : Str) : stmtError what (ρ file) (moved g d) b = mvErr ρ (stmtError what file d b) := by
  unfold stmtError mvErr
  rw [moved_line, moved_string]
  rfl

theorem checkMasks_moved (g : Str → Str) (d : Directive) (term : Str) (masks : List Nat) : ∀ what, checkMasks (moved g d) term what masks = checkMasks d term what masks := by
  induction masks with
  | nil => intro what; rfl
  | cons m ms ih =>
    intro what
    unfold checkMasks
    simp only [ih, moved_directive, moved_args]

theorem analyze_moved (ρ g : Str → Str) (file : Str) (d : Directive) (term : Str) (ctx : List Str) (o : ParseOptions) :
    analyze (ρ file) (moved g d) term ctx o = (analyze file d term ctx o).map (mvErr ρ) := by
  unfold analyze
  simp only [checkMasks_moved, moved_directive, stmtError_moved]
  cases contexts.lookup (ctxKey ctx) <;> cases lookupMasks o d.directive <;> cases o.errorOnUnknownDirectives <;> simp only [Option.isNone, Bool.and_self, Bool.and_false,
    Bool.and_true, Bool.false_eq_true, if_false, if_true, Option.map_none, Option.map_some]
  all_goals
    rename_i cur masks
    generalize (if o.skipDirectiveContextCheck = true then masks else masks.filter fun mask => (mask &&& cur) != 0) = ms
    by_cases h1 : (!o.skipDirectiveContextCheck && ms.length == 0) = true
    · rw [if_pos h1, if_pos h1]; rfl
    · rw [if_neg h1, if_neg h1]
      by_cases h2 : o.skipDirectiveArgsCheck = true
      · rw [if_pos h2, if_pos h2]; rfl
      · rw [if_neg h2, if_neg h2]
        cases checkMasks d term [] ms <;> rfl

theorem analyzeMapBody_moved (ρ g : Str → Str) (file : Str) (d : Directive) (term m : Str) :
    analyzeMapBody (ρ file) (moved g d) term m = (analyzeMapBody file d term m).map (mvErr ρ) := by
  unfold analyzeMapBody
  simp only [moved_directive, moved_args, stmtError_moved]
  cases mapBodies.lookup m with
  | none => rfl
  | some ms =>
    simp only
    split
    · rfl
    · cases ms.special.lookup d.directive with
      | none => simp only; split <;> rfl
      | some k => simp only; split <;> rfl

theorem prepareIfArgs_moved (g : Str → Str) (d : Directive) : prepareIfArgs (moved g d) = (prepareIfArgs d).map (moved g) := by
  obtain ⟨dd, dl, dargs, df, dincl, dblock, dcomm, dmap⟩ := d
  unfold prepareIfArgs
  simp only [moved]
  cases dargs.head? with
  | none => rfl
  | some a =>
    cases dargs.getLast? with
    | none => rfl
    | some b =>
      simp only
      by_cases h : (hasPrefix a c!"(" && hasSuffix b c!")") = true
      · simp only [h, if_true]
        rw [apply_ite (Option.map (moved g))]
        rfl
      · rw [if_neg h, if_neg h]
        rfl

theorem prepIf_moved (g : Str → Str) (d : Directive) : prepIf (moved g d) = (prepIf d).map (moved g) := by
  unfold prepIf
  rw [moved_directive]
  split
  · exact prepareIfArgs_moved g d
  · rfl

/-! ## Patterns -/

theorem Spec.PatternIn.suffix {toks toks' : List Tok} {p : Str} (h : PatternIn toks' p) (hs : toks' <:+ toks) : PatternIn toks p := by
  obtain ⟨pre, t, mid, u, post, rfl, h2⟩ := h
  obtain ⟨w, rfl⟩ := hs
  exact ⟨w ++ pre, t, mid, u, post, by simp, h2⟩

theorem readArgs_head (pc : Bool) : ∀ (toks : List Tok) (x : Str) (xs cs : List Str) {a c : List Str} {t : Tok} {r : List Tok},
    readArgs pc (x :: xs) cs toks = some (a, c, t, r) → a.head? = some x := by
  intro toks
  induction toks with
  | nil => intro x xs cs a c t r h; cases h
  | cons u toks ih =>
    intro x xs cs a c t r h
    unfold readArgs at h
    split at h
    · cases h; rfl
    · split at h
      · exact ih x (xs ++ [u.value]) cs h
      · split at h
        · exact ih _ _ _ h
        · exact ih _ _ _ h

theorem readArgs_first (pc : Bool) : ∀ (toks : List Tok) (cs : List Str) {a : Str} {as c : List Str} {t : Tok} {r : List Tok},
    readArgs pc [] cs toks = some (a :: as, c, t, r) → ∃ mid u post, toks = mid ++ u :: post ∧ (∀ c ∈ mid, c.value.head? = some '#') ∧ u.value = a := by
  intro toks
  induction toks with
  | nil => intro cs a as c t r h; cases h
  | cons u toks ih =>
    intro cs a as c t r h
    have skip : ∀ {cs : List Str}, u.isCommentTok = true → readArgs pc [] cs toks = some (a :: as, c, t, r) →
        ∃ mid w post, u :: toks = mid ++ w :: post ∧ (∀ c ∈ mid, c.value.head? = some '#') ∧ w.value = a := by
      intro cs hc h
      obtain ⟨mid, w, post, rfl, h2, h3⟩ := ih cs h
      refine ⟨u :: mid, w, post, rfl, fun c hm => ?_, h3⟩
      rcases List.mem_cons.mp hm with rfl | hm
      · unfold Tok.isCommentTok hasPrefix at hc
        cases hv : c.value with
        | nil => rw [hv] at hc; simp at hc
        | cons v vs =>
          rw [hv] at hc
          simp at hc
          rw [hc.1]; rfl
      · exact h2 c hm
    unfold readArgs at h
    split at h
    · cases h
    · split at h
      · have := readArgs_head pc toks u.value [] cs h
        exact ⟨[], u, toks, rfl, by simp, (Option.some.inj this).symm⟩
      · rename_i hc
        split at h
        · exact skip (by simpa using hc) h
        · exact skip (by simpa using hc) h

/-! ## States -/

/-- A state with the new paths and other errors. -/
def PS.mv (ρ : Str → Str) (ps : PS) (ce : List ConfigError) (pe : List PayloadError) : PS :=
  { ps with
    includes := ps.includes.map fun f => { f with path := ρ f.path }
    included := ps.included.map fun x => (ρ x.1, x.2)
    includeEdges := ps.includeEdges.map fun x => (ρ x.1, x.2.map ρ)
    includeInDegree := ps.includeInDegree.map fun x => (ρ x.1, x.2)
    cfgErrors := ce
    payErrors := pe }

theorem lookup_mv {α β : Type} {ρ : Str → Str} (hi : ∀ a b, ρ a = ρ b → a = b) (f : α → β) (l : List (Str × α)) (k : Str) :
    (l.map fun x => (ρ x.1, f x.2)).lookup (ρ k) = (l.lookup k).map f := by
  induction l with
  | nil => rfl
  | cons e l ih =>
    obtain ⟨n, v⟩ := e
    rw [List.map_cons, List.lookup_cons, List.lookup_cons, ih]
    by_cases h : k = n
    · subst h; simp
    · have : (ρ k == ρ n) = false := by simpa using fun h' => h (hi _ _ h')
      rw [this, show (k == n) = false by simpa using h]

theorem mapSet_mv {α β : Type} {ρ : Str → Str} (hi : ∀ a b, ρ a = ρ b → a = b) (f : α → β) (l : List (Str × α)) (k : Str) (v : α) :
    mapSet (l.map fun x => (ρ x.1, f x.2)) (ρ k) (f v) = (mapSet l k v).map fun x => (ρ x.1, f x.2) := by
  induction l with
  | nil => rfl
  | cons e l ih =>
    simp only [List.map_cons, mapSet]
    by_cases h : e.1 = k
    · subst h; simp
    · have : ρ e.1 ≠ ρ k := fun h' => h (hi _ _ h')
      simp [h, this, ih]

/-- The same error, with the same line. -/
def EL (ρ : Str → Str) (env env' : Env) (e e' : GoErr) : Prop := MovedErr ρ env env' e e' ∧ e'.line? = e.line?

section
variable {ρ : Str → Str} {o : ParseOptions} {env env' : Env} {dir dir' : Str}

abbrev MCErr (ρ : Str → Str) (env env' : Env) (e e' : ConfigError) : Prop := MovedErr ρ env env' e.error e'.error ∧ e'.line = e.line

abbrev MPErr (ρ : Str → Str) (env env' : Env) (e e' : PayloadError) : Prop := e'.file = ρ e.file ∧ MovedErr ρ env env' e.error e'.error ∧ e'.line = e.line

/-- States that differ only in paths and in errors. -/
def PSMv (ρ : Str → Str) (env env' : Env) (a b : PS) : Prop :=
  ∃ ce pe, List.Forall₂ (MCErr ρ env env') a.cfgErrors ce ∧ List.Forall₂ (MPErr ρ env env') a.payErrors pe ∧ b = a.mv ρ ce pe

theorem handleError_mv {file : Str} {ps ps' : PS} (h : PSMv ρ env env' ps ps') {e e' : GoErr} (he : EL ρ env env' e e') :
    PSMv ρ env env' (handleError o file ps e) (handleError o (ρ file) ps' e') := by
  obtain ⟨ce, pe, h1, h2, rfl⟩ := h
  refine ⟨ce ++ [⟨e'.line?, e'⟩], pe ++ [⟨ρ file, e'.line?, e', o.errorCallback.map (fun cb => cb ps.calls e')⟩], ?_, ?_, rfl⟩
  · exact List.rel_append h1 (.cons he .nil)
  · exact List.rel_append h2 (.cons ⟨rfl, he⟩ .nil)

/-- The first half of `addInclude`: a new file is put on the list. -/
def enqueue (ctx : Ctx) (ps : PS) (fname : Str) : PS :=
  match ps.included.lookup fname with
  | some _ => ps
  | none => { ps with
      included := ps.included ++ [(fname, (ps.included.length : Int))]
      includes := ps.includes ++ [({ path := fname, ctx := ctx } : FileCtx)] }

/-- The second half: its index goes to the directive, and the graph gets an edge. -/
def enlink (file : Str) (stmt : Directive) (ps : PS) (fname : Str) : Directive × PS :=
  ({ stmt with includes := some (stmt.includes.getD [] ++ [(ps.included.lookup fname).getD 0]) },
   { ps with
      includeEdges := mapSet ps.includeEdges file ((ps.includeEdges.lookup file).getD [] ++ [fname])
      includeInDegree := mapSet ps.includeInDegree fname ((ps.includeInDegree.lookup fname).getD 0 + 1) })

theorem addInclude_eq (file : Str) (ctx : Ctx) (stmt : Directive) (ps : PS) (fname : Str) : addInclude file ctx stmt ps fname = enlink file stmt (enqueue ctx ps fname) fname := rfl

theorem included_mv (hi : ∀ a b, ρ a = ρ b → a = b) (ps : PS) (ce : List ConfigError) (pe : List PayloadError) (f : Str) :
    (ps.mv ρ ce pe).included.lookup (ρ f) = ps.included.lookup f := by
  have := lookup_mv hi (fun i : Int => i) ps.included f
  rw [Option.map_id'] at this
  exact this

theorem enqueue_mv (hi : ∀ a b, ρ a = ρ b → a = b) (ctx : Ctx) (ps : PS) (fname : Str) (ce : List ConfigError) (pe : List PayloadError) :
    enqueue ctx (ps.mv ρ ce pe) (ρ fname) = (enqueue ctx ps fname).mv ρ ce pe ∧
      (enqueue ctx ps fname).cfgErrors = ps.cfgErrors ∧ (enqueue ctx ps fname).payErrors = ps.payErrors := by
  unfold enqueue
  rw [included_mv hi]
  cases ps.included.lookup fname with
  | some i => exact ⟨rfl, rfl, rfl⟩
  | none =>
    refine ⟨?_, rfl, rfl⟩
    unfold PS.mv
    simp

theorem enlink_mv (hi : ∀ a b, ρ a = ρ b → a = b) (g : Str → Str) (file : Str) (stmt : Directive) (ps : PS) (fname : Str) (ce : List ConfigError) (pe : List PayloadError) :
    enlink (ρ file) (moved g stmt) (ps.mv ρ ce pe) (ρ fname) = (moved g (enlink file stmt ps fname).1, (enlink file stmt ps fname).2.mv ρ ce pe) := by
  have l2 : (ps.mv ρ ce pe).includeEdges.lookup (ρ file) = (ps.includeEdges.lookup file).map (List.map ρ) := lookup_mv hi (List.map ρ) ps.includeEdges file
  have l3 : (ps.mv ρ ce pe).includeInDegree.lookup (ρ fname) = ps.includeInDegree.lookup fname := by
    have := lookup_mv hi (fun i : Int => i) ps.includeInDegree fname
    rw [Option.map_id'] at this
    exact this
  have m1 : mapSet (ps.mv ρ ce pe).includeEdges (ρ file) ((((ps.includeEdges.lookup file).map (List.map ρ)).getD []) ++ [ρ fname]) =
      (mapSet ps.includeEdges file ((ps.includeEdges.lookup file).getD [] ++ [fname])).map fun x => (ρ x.1, x.2.map ρ) := by
    have := mapSet_mv hi (List.map ρ) ps.includeEdges file ((ps.includeEdges.lookup file).getD [] ++ [fname])
    rw [← this]
    congr 1
    cases ps.includeEdges.lookup file <;> simp
  have m2 : mapSet (ps.mv ρ ce pe).includeInDegree (ρ fname) ((ps.includeInDegree.lookup fname).getD 0 + 1) =
      (mapSet ps.includeInDegree fname ((ps.includeInDegree.lookup fname).getD 0 + 1)).map fun x => (ρ x.1, x.2) :=
    mapSet_mv hi (fun i : Int => i) ps.includeInDegree fname _
  unfold enlink
  rw [included_mv hi, l2, l3, m1, m2]
  cases stmt
  rfl

theorem addInclude_mv (hi : ∀ a b, ρ a = ρ b → a = b) (g : Str → Str) (file : Str) (ctx : Ctx) (stmt : Directive) (ps : PS) (fname : Str) (ce : List ConfigError) (pe : List PayloadError) :
    addInclude (ρ file) ctx (moved g stmt) (ps.mv ρ ce pe) (ρ fname) =
        (moved g (addInclude file ctx stmt ps fname).1, (addInclude file ctx stmt ps fname).2.mv ρ ce pe) ∧
      (addInclude file ctx stmt ps fname).2.cfgErrors = ps.cfgErrors ∧ (addInclude file ctx stmt ps fname).2.payErrors = ps.payErrors := by
  obtain ⟨h1, h2, h3⟩ := enqueue_mv hi ctx ps fname ce pe
  rw [addInclude_eq, addInclude_eq, h1, enlink_mv hi]
  exact ⟨rfl, h2, h3⟩

theorem addIncludes_mv (hi : ∀ a b, ρ a = ρ b → a = b) (g : Str → Str) (file : Str) (ctx : Ctx) (ce : List ConfigError) (pe : List PayloadError) (names : List Str) :
    ∀ (stmt : Directive) (ps : PS), addIncludes (ρ file) ctx (moved g stmt) (ps.mv ρ ce pe) (names.map ρ) =
        (moved g (addIncludes file ctx stmt ps names).1, (addIncludes file ctx stmt ps names).2.mv ρ ce pe) ∧
      (addIncludes file ctx stmt ps names).2.cfgErrors = ps.cfgErrors ∧ (addIncludes file ctx stmt ps names).2.payErrors = ps.payErrors := by
  induction names with
  | nil => intro stmt ps; exact ⟨rfl, rfl, rfl⟩
  | cons n ns ih =>
    intro stmt ps
    obtain ⟨h1, h2, h3⟩ := addInclude_mv hi g file ctx stmt ps n ce pe
    obtain ⟨k1, k2, k3⟩ := ih (addInclude file ctx stmt ps n).1 (addInclude file ctx stmt ps n).2
    rw [List.map_cons, addIncludes, addIncludes, h1]
    exact ⟨k1, k2.trans h2, k3.trans h3⟩

theorem PSMv.addIncludes (hi : ∀ a b, ρ a = ρ b → a = b) (g : Str → Str) {file : Str} {ctx : Ctx} {stmt : Directive} {ps ps' : PS} (h : PSMv ρ env env' ps ps') (names : List Str) :
    (addIncludes (ρ file) ctx (moved g stmt) ps' (names.map ρ)).1 = moved g (addIncludes file ctx stmt ps names).1 ∧
      PSMv ρ env env' (addIncludes file ctx stmt ps names).2 (addIncludes (ρ file) ctx (moved g stmt) ps' (names.map ρ)).2 := by
  obtain ⟨ce, pe, h1, h2, rfl⟩ := h
  obtain ⟨k1, k2, k3⟩ := addIncludes_mv hi g file ctx ce pe names stmt ps
  rw [k1]
  exact ⟨rfl, ce, pe, by rw [k2]; exact h1, by rw [k3]; exact h2, rfl⟩

/-- The pattern stands for the new path. -/
def GoodPattern (ρ : Str → Str) (env env' : Env) (dir dir' p : Str) : Prop :=
  patternPath env' dir' p = ρ (patternPath env dir p) ∧ hasMagic (ρ (patternPath env dir p)) = hasMagic (patternPath env dir p)

theorem patternPath_not (env : Env) (dir p : Str) : (if !env.isAbs p then env.join dir p else p) = patternPath env dir p := by
  unfold patternPath
  cases env.isAbs p <;> rfl

theorem doInclude_mv (hM : MovedFiles ρ o env env' dir dir') (file : Str) (ctx : Ctx) (stmt : Directive) {ps ps' : PS} (h : PSMv ρ env env' ps ps')
    (hp : ∀ a as, stmt.directive = c!"include" → stmt.args = a :: as → GoodPattern ρ env env' dir dir' a) :
    MovedRes (EL ρ env env') (fun d d' => d' = moved (tagOf o ρ) d) (doInclude env o dir file ctx stmt ps).1
      (doInclude env' o dir' (ρ file) ctx (moved (tagOf o ρ) stmt) ps').1 ∧
    PSMv ρ env env' (doInclude env o dir file ctx stmt ps).2 (doInclude env' o dir' (ρ file) ctx (moved (tagOf o ρ) stmt) ps').2 := by
  unfold doInclude
  rw [moved_directive, moved_args]
  by_cases hi : (!o.singleFile && stmt.directive == c!"include") = true
  · rw [if_pos hi, if_pos hi]
    have hdir : stmt.directive = c!"include" := by simp at hi; exact hi.2
    cases hargs : stmt.args with
    | nil =>
      refine ⟨.err ⟨?_, ?_⟩, h⟩
      · simp only [moved_line, moved_string]
        have ea : ∀ a b c : Str, a ++ b ++ c!":" ++ c = a ++ b ++ (c!":" ++ c) := fun a b c => by rw [List.append_assoc]
        rw [ea, ea]
        exact .named (e := { what := [], file := some file, line := some stmt.line, statement := stmt.string, blockCtx := getLastBlock ctx.vals })
      · simp only [moved_line, GoErr.line?]
    | cons a as =>
      simp only
      rw [patternPath_not, patternPath_not]
      obtain ⟨g1, g2⟩ := hp a as hdir hargs
      rw [g1, g2]
      generalize patternPath env dir a = p
      obtain ⟨ce, pe, h1, h2, rfl⟩ := h
      have hg : (ps.mv ρ ce pe).globs = ps.globs := rfl
      have ho : (ps.mv ρ ce pe).opens = ps.opens := rfl
      have hg' : PSMv ρ env env' { ps with globs := ps.globs + 1 } { ps.mv ρ ce pe with globs := ps.globs + 1 } := ⟨ce, pe, h1, h2, rfl⟩
      have ho' : PSMv ρ env env' { ps with opens := ps.opens + 1 } { ps.mv ρ ce pe with opens := ps.opens + 1 } := ⟨ce, pe, h1, h2, rfl⟩
      rw [hg, ho]
      by_cases hm : hasMagic p = true
      · rw [if_pos hm, if_pos hm]
        rcases hM.globs ps.globs p with ⟨names, e1, e2, e3⟩ | ⟨x, x', e1, e2, e3⟩
        · rw [e1, e2]
          simp only
          rw [e3]
          obtain ⟨k1, k2⟩ := hg'.addIncludes hM.inj (tagOf o ρ) (file := file) (ctx := ctx) (stmt := stmt) (sortStrings names)
          exact ⟨.ok k1, k2⟩
        · rw [e1, e2]
          exact ⟨.err ⟨.pattern e1 e2, e3⟩, hg'⟩
      · rw [if_neg hm, if_neg hm]
        rcases hM.files ps.opens p with ⟨d, e1, e2⟩ | ⟨x, x', e1, e2⟩
        · rw [e1, e2]
          obtain ⟨k1, k2⟩ := ho'.addIncludes hM.inj (tagOf o ρ) (file := file) (ctx := ctx) (stmt := stmt) [p]
          exact ⟨.ok k1, k2⟩
        · rw [e1, e2]
          simp only
          rw [stmtError_moved]
          have he : EL ρ env env' (.parse (stmtError x.error file stmt (getLastBlock ctx.vals))) (.parse (mvErr ρ (stmtError x'.error file stmt (getLastBlock ctx.vals)))) :=
            ⟨.missing (e := stmtError x.error file stmt (getLastBlock ctx.vals)) e1 e2, rfl⟩
          cases o.stopParsingOnError with
          | true => exact ⟨.err he, ho'⟩
          | false => exact ⟨.ok rfl, handleError_mv ho' he⟩
  · rw [if_neg hi, if_neg hi]
    exact ⟨.ok rfl, h⟩

/-! ## Rounds -/

/-- Rounds that differ only in paths. -/
inductive StepMv (ρ : Str → Str) (o : ParseOptions) (env env' : Env) : Step → Step → Prop
  | stop {toks ps ps'} : PSMv ρ env env' ps ps' → StepMv ρ o env env' (.stop toks ps) (.stop toks ps')
  | fail {e e' toks ps ps'} : Option.Rel (EL ρ env env') e e' → PSMv ρ env env' ps ps' → StepMv ρ o env env' (.fail e toks ps) (.fail e' toks ps')
  | next {new toks ps ps'} : PSMv ρ env env' ps ps' → StepMv ρ o env env' (.next new toks ps) (.next (movedList (tagOf o ρ) new) toks ps')
  | block {stmt comments toks ps ps'} : PSMv ρ env env' ps ps' → StepMv ρ o env env' (.block stmt comments toks ps) (.block (moved (tagOf o ρ) stmt) comments toks ps')

theorem tokenError_mv (file : Str) (ctx : List Str) (t : Tok) (e : GoErr) : EL ρ env env' (tokenError file ctx t e) (tokenError (ρ file) ctx t e) := by
  cases e with
  | parse e => exact ⟨.parse (e := { e with file := some file, blockCtx := getLastBlock ctx }), rfl⟩
  | other m => exact ⟨.parse (e := { what := m, file := some file, line := some t.line, orig := some m, blockCtx := getLastBlock ctx }), rfl⟩

theorem mvErr_EL (e : ParseError) : EL ρ env env' (.parse e) (.parse (mvErr ρ e)) := ⟨.parse, rfl⟩

theorem step_mv (hM : MovedFiles ρ o env env' dir dir') (file : Str) (ctx : Ctx) (t : Tok) (toks : List Tok) {ps ps' : PS} (h : PSMv ρ env env' ps ps')
    (hp : ∀ p, PatternIn (t :: toks) p → GoodPattern ρ env env' dir dir' p) :
    StepMv ρ o env env' (step env o dir file ctx t toks ps) (step env' o dir' (ρ file) ctx t toks ps') := by
  unfold step
  cases t.error with
  | some e => exact .fail (.some (tokenError_mv ..)) h
  | none =>
    simp only
    by_cases hc : t.is c!"}" = true
    · rw [if_pos hc, if_pos hc]
      exact .stop h
    rw [if_neg hc, if_neg hc]
    by_cases hco : t.isCommentTok = true
    · rw [if_pos hco, if_pos hco]
      have : (if o.parseComments = true then [commentStmt o (ρ file) t] else []) = movedList (tagOf o ρ) (if o.parseComments = true then [commentStmt o file t] else []) := by
        cases o.parseComments with
        | false => rfl
        | true => simp only [if_true, movedList, commentStmt_moved]
      rw [this]
      exact .next h
    rw [if_neg hco, if_neg hco]
    cases hr : readArgs o.parseComments [] [] toks with
    | none => exact .fail (.some ⟨.parse (e := { what := errPrematureLexEnd, file := some file, line := some t.line, orig := some errPrematureLexEnd, blockCtx := getLastBlock ctx.vals }), rfl⟩) h
    | some r =>
    obtain ⟨args, comments, term, rest⟩ := r
    simp only
    rw [baseStmt_moved]
    have hpat : ∀ a as, (baseStmt o file t args).directive = c!"include" → (baseStmt o file t args).args = a :: as → GoodPattern ρ env env' dir dir' a := by
      intro a as h1 h2
      have h2' : args = a :: as := h2
      rw [h2'] at hr
      obtain ⟨mid, u, post, e1, e2, e3⟩ := readArgs_first _ _ _ hr
      exact hp a ⟨[], t, mid, u, post, by rw [e1]; rfl, h1, e2, e3⟩
    generalize baseStmt o file t args = stmt at hpat ⊢
    unfold stepStmt
    cases mapCtx ctx.vals with
    | some m =>
      simp only
      rw [analyzeMapBody_moved]
      cases analyzeMapBody file stmt term.value m with
      | some err =>
        simp only [Option.map_some]
        split
        · exact .fail (.some (mvErr_EL err)) h
        · exact .next (new := []) (handleError_mv h (mvErr_EL err))
      | none =>
        simp only [Option.map_none]
        have : ({ moved (tagOf o ρ) stmt with isMapBlockParameter := true } : Directive) = moved (tagOf o ρ) { stmt with isMapBlockParameter := true } := by cases stmt; rfl
        rw [this]
        exact .next (new := [{ stmt with isMapBlockParameter := true }]) h
    | none =>
      simp only
      rw [moved_directive]
      by_cases hig : contains o.ignoreDirectives stmt.directive = true
      · rw [if_pos hig, if_pos hig]
        exact .next (new := []) h
      rw [if_neg hig, if_neg hig, analyze_moved]
      cases analyze file stmt term.value ctx.vals o with
      | some err =>
        simp only [Option.map_some]
        have hw : (mvErr ρ err).what = err.what := rfl
        rw [hw]
        split
        · split
          · split
            · exact .next (new := []) (handleError_mv h (mvErr_EL err))
            · exact .stop (handleError_mv h (mvErr_EL err))
          · exact .next (new := []) (handleError_mv h (mvErr_EL err))
        · exact .fail (.some (mvErr_EL err)) h
      | none =>
        simp only [Option.map_none]
        rw [prepIf_moved]
        cases hpi : prepIf stmt with
        | none => exact .fail .none h
        | some s1 =>
          simp only [Option.map_some]
          have hpat1 : ∀ a as, s1.directive = c!"include" → s1.args = a :: as → GoodPattern ρ env env' dir dir' a := by
            intro a as h1 h2
            have hd : stmt.directive = s1.directive := by rw [prepIf_some hpi]
            have : s1 = stmt := by
              unfold prepIf at hpi
              rw [if_neg (by rw [hd, h1]; decide)] at hpi
              exact (Option.some.inj hpi).symm
            rw [this] at h1 h2
            exact hpat a as h1 h2
          obtain ⟨k1, k2⟩ := doInclude_mv hM file ctx s1 h hpat1
          generalize doInclude env o dir file ctx s1 ps = r at k1 k2 ⊢
          generalize doInclude env' o dir' (ρ file) ctx (moved (tagOf o ρ) s1) ps' = r' at k1 k2 ⊢
          obtain ⟨r, p⟩ := r
          obtain ⟨r', p'⟩ := r'
          simp only at k1 k2
          cases k1 with
          | @ok s2 _ hk =>
            subst hk
            simp only
            split
            · exact .block k2
            · rw [moved_line]
              have := StepMv.next (ρ := ρ) (o := o) (new := [s2] ++ commentDirectives s2.line (if o.combineConfigs then file else []) comments) (toks := rest) k2
              rw [movedList_append, ← commentDirectives_moved] at this
              exact this
          | err hk => exact .fail (.some hk) k2
          | panic => exact .fail .none k2
          | fuel => exact .fail .none k2

/-! ## Files -/

theorem enterBlockCtx_mv (g : Str → Str) (stmt : Directive) (ctx : Ctx) {ps ps' : PS} (h : PSMv ρ env env' ps ps') :
    (enterBlockCtx (moved g stmt) ctx ps').1 = (enterBlockCtx stmt ctx ps).1 ∧ PSMv ρ env env' (enterBlockCtx stmt ctx ps).2 (enterBlockCtx (moved g stmt) ctx ps').2 := by
  obtain ⟨ce, pe, h1, h2, rfl⟩ := h
  unfold enterBlockCtx
  simp only [moved_directive]
  split
  · exact ⟨rfl, ce, pe, h1, h2, rfl⟩
  · split
    · refine ⟨rfl, ce, pe, h1, h2, ?_⟩
      unfold PS.mv
      simp
    · exact ⟨rfl, ce, pe, h1, h2, rfl⟩

/-- Results of `parse` that differ only in paths. -/
def OutMv (ρ : Str → Str) (o : ParseOptions) (env env' : Env) (toks : List Tok) (r r' : Res (List Directive) × List Tok × PS) : Prop :=
  MovedRes (EL ρ env env') (fun a b => b = movedList (tagOf o ρ) a) r.1 r'.1 ∧ r'.2.1 = r.2.1 ∧ r.2.1 <:+ toks ∧ PSMv ρ env env' r.2.2 r'.2.2

theorem parse_mv (hM : MovedFiles ρ o env env' dir dir') (file : Str) (fuel : Nat) : ∀ (ctx : Ctx) (toks : List Tok) (parsed : List Directive) {ps ps' : PS},
    (∀ p, PatternIn toks p → GoodPattern ρ env env' dir dir' p) → PSMv ρ env env' ps ps' →
    OutMv ρ o env env' toks (parse env o dir file fuel ctx toks parsed ps) (parse env' o dir' (ρ file) fuel ctx toks (movedList (tagOf o ρ) parsed) ps') := by
  induction fuel with
  | zero => intro ctx toks parsed ps ps' hp h; exact ⟨.fuel, rfl, List.suffix_refl _, h⟩
  | succ fuel ih =>
    intro ctx toks parsed ps ps' hp h
    cases toks with
    | nil => exact ⟨.ok rfl, rfl, List.suffix_refl _, h⟩
    | cons t toks =>
      rw [parse_step, parse_step]
      have hs := step_mv hM file ctx t toks h hp
      have hsuf := step_suffix env o dir file ctx t toks ps
      generalize step env o dir file ctx t toks ps = s at hs hsuf ⊢
      generalize step env' o dir' (ρ file) ctx t toks ps' = s' at hs ⊢
      have up : ∀ {toks1 : List Tok}, toks1 <:+ toks → toks1 <:+ t :: toks := fun h => h.trans (List.suffix_cons t toks)
      have good : ∀ {toks1 : List Tok}, toks1 <:+ toks → ∀ p, PatternIn toks1 p → GoodPattern ρ env env' dir dir' p := fun h p hq => hp p (hq.suffix (up h))
      cases hs with
      | stop k1 => exact ⟨.ok rfl, rfl, up hsuf, k1⟩
      | fail k1 k2 =>
        cases k1 with
        | none => exact ⟨.panic, rfl, up hsuf, k2⟩
        | some k1 => exact ⟨.err k1, rfl, up hsuf, k2⟩
      | @next new toks1 p p' k1 =>
        simp only at hsuf ⊢
        rw [← movedList_append]
        obtain ⟨i1, i2, i3, i4⟩ := ih ctx toks1 (parsed ++ new) (good hsuf) k1
        exact ⟨i1, i2, i3.trans (up hsuf), i4⟩
      | @block stmt comments toks1 p p' k1 =>
        simp only at hsuf ⊢
        obtain ⟨e1, e2⟩ := enterBlockCtx_mv (tagOf o ρ) stmt ctx k1
        rw [e1]
        obtain ⟨i1, i2, i3, i4⟩ := ih (enterBlockCtx stmt ctx p).1 toks1 [] (good hsuf) e2
        rw [show movedList (tagOf o ρ) [] = [] from rfl] at i1 i2 i4
        generalize parse env o dir file fuel (enterBlockCtx stmt ctx p).1 toks1 [] (enterBlockCtx stmt ctx p).2 = r at i1 i2 i3 i4 ⊢
        generalize parse env' o dir' (ρ file) fuel (enterBlockCtx stmt ctx p).1 toks1 [] (enterBlockCtx (moved (tagOf o ρ) stmt) ctx p').2 = r' at i1 i2 i4 ⊢
        obtain ⟨r, u, q⟩ := r
        obtain ⟨r', u', q'⟩ := r'
        simp only at i1 i2 i3 i4
        subst i2
        cases i1 with
        | @ok b b' hb =>
          subst hb
          simp only
          have e : movedList (tagOf o ρ) parsed ++ [{ moved (tagOf o ρ) stmt with block := some (movedList (tagOf o ρ) b) }] ++
              commentDirectives (moved (tagOf o ρ) stmt).line (if o.combineConfigs then ρ file else []) comments =
              movedList (tagOf o ρ) (parsed ++ [{ stmt with block := some b }] ++ commentDirectives stmt.line (if o.combineConfigs then file else []) comments) := by
            rw [movedList_append, movedList_append, moved_line, commentDirectives_moved]
            cases stmt
            rfl
          rw [e]
          obtain ⟨j1, j2, j3, j4⟩ := ih ctx u' (parsed ++ [{ stmt with block := some b }] ++ commentDirectives stmt.line (if o.combineConfigs then file else []) comments)
            (good (i3.trans hsuf)) i4
          exact ⟨j1, j2, j3.trans (i3.trans (up hsuf)), j4⟩
        | err k => exact ⟨.err k, rfl, i3.trans (up hsuf), i4⟩
        | panic => exact ⟨.panic, rfl, i3.trans (up hsuf), i4⟩
        | fuel => exact ⟨.fuel, rfl, i3.trans (up hsuf), i4⟩

abbrev MConfig (ρ : Str → Str) (o : ParseOptions) (env env' : Env) : Config → Config → Prop := MovedConfig (MovedErr ρ env env') ρ (tagOf o ρ)

theorem parseFiles_mv (hM : MovedFiles ρ o env env' dir dir') (fuel : Nat) : ∀ {ps ps' : PS} {cs cs' : List Config}, PSMv ρ env env' ps ps' →
    List.Forall₂ (MConfig ρ o env env') cs cs' →
    MovedRes (MovedErr ρ env env') (List.Forall₂ (MConfig ρ o env env')) (parseFiles env o dir fuel ps cs).1 (parseFiles env' o dir' fuel ps' cs').1 ∧
      PSMv ρ env env' (parseFiles env o dir fuel ps cs).2 (parseFiles env' o dir' fuel ps' cs').2 := by
  induction fuel with
  | zero => intro ps ps' cs cs' h1 h2; exact ⟨.fuel, h1⟩
  | succ fuel ih =>
    intro ps ps' cs cs' h1 h2
    obtain ⟨ce, pe, c1, c2, rfl⟩ := h1
    unfold parseFiles
    rw [show (ps.mv ρ ce pe).includes = ps.includes.map (fun f => { f with path := ρ f.path }) from rfl, show (ps.mv ρ ce pe).opens = ps.opens from rfl]
    cases hi : ps.includes with
    | nil => exact ⟨.ok h2, ce, pe, c1, c2, rfl⟩
    | cons incl rest =>
      simp only [List.map_cons]
      rcases hM.files ps.opens incl.path with ⟨d, e1, e2⟩ | ⟨x, x', e1, e2⟩
      · rw [e1, e2]
        simp only
        generalize (lexWith (extLexersOf o.lexers) d.runes).length + 1 = n
        obtain ⟨i1, -, -, i3⟩ := parse_mv hM incl.path n incl.ctx (lexWith (extLexersOf o.lexers) d.runes) []
          (ps := { ps with includes := rest, opens := ps.opens + 1, cfgStatus := c!"ok", cfgErrors := [] })
          (ps' := { ps.mv ρ ce pe with includes := rest.map (fun f => { f with path := ρ f.path }), opens := ps.opens + 1, cfgStatus := c!"ok", cfgErrors := [] })
          (fun p hp => hM.patterns _ _ _ e1 p hp) ⟨[], pe, .nil, c2, rfl⟩
        rw [show movedList (tagOf o ρ) [] = [] from rfl] at i1 i3
        generalize parse env o dir incl.path n incl.ctx (lexWith (extLexersOf o.lexers) d.runes) [] _ = r at i1 i3 ⊢
        generalize parse env' o dir' (ρ incl.path) n incl.ctx (lexWith (extLexersOf o.lexers) d.runes) [] _ = r' at i1 i3 ⊢
        obtain ⟨r, u, p⟩ := r
        obtain ⟨r', u', p'⟩ := r'
        simp only at i1 i3
        cases i1 with
        | @ok b b' hb =>
          simp only
          refine ih i3 (List.rel_append h2 (.cons ?_ .nil))
          obtain ⟨ce', pe', k1, k2, rfl⟩ := i3
          exact ⟨rfl, rfl, k1, hb⟩
        | @err e e' k =>
          simp only
          cases o.stopParsingOnError with
          | true => exact ⟨.err k.1, i3⟩
          | false =>
            simp only [Bool.false_eq_true, if_false]
            have i4 := handleError_mv (o := o) (file := incl.path) i3 k
            refine ih i4 (List.rel_append h2 (.cons ?_ .nil))
            obtain ⟨ce', pe', k1, k2, k3⟩ := i4
            rw [k3]
            exact ⟨rfl, rfl, k1, rfl⟩
        | panic => exact ⟨.panic, i3⟩
        | fuel => exact ⟨.fuel, i3⟩
      · rw [e1, e2]
        exact ⟨.err (.noFile e1 e2), ce, pe, c1, c2, rfl⟩

/-! ## Cycles -/

theorem kahnEdges_mv (hi : ∀ a b, ρ a = ρ b → a = b) (fs : List Str) : ∀ (indeg : List (Str × Int)) (queue : List Str),
    kahnEdges (indeg.map fun x => (ρ x.1, x.2)) (queue.map ρ) (fs.map ρ) = ((kahnEdges indeg queue fs).1.map (fun x => (ρ x.1, x.2)), (kahnEdges indeg queue fs).2.map ρ) := by
  induction fs with
  | nil => intro indeg queue; rfl
  | cons f fs ih =>
    intro indeg queue
    have l := lookup_mv hi (fun i : Int => i) indeg f
    rw [Option.map_id'] at l
    have m := mapSet_mv hi (fun i : Int => i) indeg f ((indeg.lookup f).getD 0 - 1)
    rw [List.map_cons, kahnEdges, kahnEdges, ← ih]
    rw [l, m]
    congr 1
    split
    · rw [List.map_append]; rfl
    · rfl

theorem kahnLoop_mv (hi : ∀ a b, ρ a = ρ b → a = b) (edges : List (Str × List Str)) (fuel : Nat) : ∀ (indeg : List (Str × Int)) (queue : List Str) (n : Nat),
    kahnLoop (edges.map fun x => (ρ x.1, x.2.map ρ)) fuel (indeg.map fun x => (ρ x.1, x.2)) (queue.map ρ) n = kahnLoop edges fuel indeg queue n := by
  induction fuel with
  | zero => intro indeg queue n; rfl
  | succ fuel ih =>
    intro indeg queue n
    cases queue with
    | nil => rfl
    | cons f queue =>
      have l := lookup_mv hi (List.map ρ) edges f
      have e : ((edges.lookup f).map (List.map ρ)).getD [] = ((edges.lookup f).getD []).map ρ := by cases edges.lookup f <;> rfl
      rw [List.map_cons, kahnLoop, kahnLoop, l, e, kahnEdges_mv hi]
      exact ih _ _ _

theorem isAcyclic_mv (hi : ∀ a b, ρ a = ρ b → a = b) (h1 : env.mapOrder = id) (h2 : env'.mapOrder = id) (ps : PS) (ce : List ConfigError) (pe : List PayloadError) :
    isAcyclic env' (ps.mv ρ ce pe) = isAcyclic env ps := by
  unfold isAcyclic
  rw [h1, h2]
  have hk : (ps.mv ρ ce pe).includeInDegree = ps.includeInDegree.map fun x => (ρ x.1, x.2) := rfl
  have he : (ps.mv ρ ce pe).includeEdges = ps.includeEdges.map fun x => (ρ x.1, x.2.map ρ) := rfl
  simp only [hk, he, id, List.length_map, List.map_map]
  have : ((ps.includeInDegree.map ((fun x : Str × Int => x.1) ∘ fun x => (ρ x.1, x.2))).filter
      fun k => ((ps.includeInDegree.map fun x => (ρ x.1, x.2)).lookup k).getD 0 == 0) =
      ((ps.includeInDegree.map (·.1)).filter fun k => (ps.includeInDegree.lookup k).getD 0 == 0).map ρ := by
    have e : (ps.includeInDegree.map ((fun x : Str × Int => x.1) ∘ fun x => (ρ x.1, x.2))) = (ps.includeInDegree.map (·.1)).map ρ := by rw [List.map_map]; rfl
    rw [e, List.filter_map]
    congr 1
    refine List.filter_congr fun k _ => ?_
    have l := lookup_mv hi (fun i : Int => i) ps.includeInDegree k
    rw [Option.map_id'] at l
    simp only [Function.comp, l]
  rw [this, kahnLoop_mv hi]

/-! ## Combining -/

theorem Spec.MovedRes.bind {E : GoErr → GoErr → Prop} {α β γ δ : Type} {R : α → β → Prop} {S : γ → δ → Prop} {r : Res α} {r' : Res β} {f : α → Res γ} {g : β → Res δ}
    (h : MovedRes E R r r') (hf : ∀ a b, R a b → MovedRes E S (f a) (g b)) : MovedRes E S (r.bind f) (r'.bind g) := by
  cases h with
  | ok h => exact hf _ _ h
  | err h => exact .err h
  | panic => exact .panic
  | fuel => exact .fuel

/-- Lists of directives that differ only in paths. -/
abbrev MDirs (o : ParseOptions) (ρ : Str → Str) (a b : List Directive) : Prop := b = movedList (tagOf o ρ) a

section
variable {cs cs' : List Config} {inner inner' : Str → List Directive → Res (List Directive)}

theorem expandIncludes_mv (hcs : List.Forall₂ (MConfig ρ o env env') cs cs')
    (hin : ∀ f ds, MovedRes (MovedErr ρ env env') (MDirs o ρ) (inner f ds) (inner' (ρ f) (movedList (tagOf o ρ) ds))) (f : Str)
    (d : Directive) (is : List Int) : MovedRes (MovedErr ρ env env') (MDirs o ρ) (expandIncludes cs inner f d is) (expandIncludes cs' inner' (ρ f) (moved (tagOf o ρ) d) is) := by
  induction is with
  | nil => exact .ok rfl
  | cons i is ih =>
    unfold expandIncludes
    rw [← hcs.length_eq]
    split
    · refine .err ?_
      unfold indexError
      rw [moved_line, moved_string]
      exact .parse (e := { what := c!"include config with index: " ++ decimal i, file := some f, line := some d.line, statement := d.string })
    · split
      · exact .panic
      · have := List.forall₂_iff_get.mp hcs
        cases hc : cs[i.toNat]? with
        | none =>
          have : cs'[i.toNat]? = none := by rw [List.getElem?_eq_none_iff, ← hcs.length_eq]; exact List.getElem?_eq_none_iff.mp hc
          rw [this]
          exact .panic
        | some c =>
          obtain ⟨hl, hc⟩ := List.getElem?_eq_some_iff.mp hc
          have hl' : i.toNat < cs'.length := by rw [← hcs.length_eq]; exact hl
          have hrel := this.2 i.toNat hl hl'
          rw [List.getElem?_eq_getElem hl']
          simp only [List.get_eq_getElem] at hrel
          rw [hc] at hrel
          simp only
          rw [hrel.file, hrel.parsed]
          refine (hin _ _).bind fun a b hab => ih.bind fun a' b' hab' => .ok ?_
          rw [hab, hab']
          exact (movedList_append ..).symm

theorem expandList_mv (hcs : List.Forall₂ (MConfig ρ o env env') cs cs')
    (hin : ∀ f ds, MovedRes (MovedErr ρ env env') (MDirs o ρ) (inner f ds) (inner' (ρ f) (movedList (tagOf o ρ) ds))) (f : Str) (ds : List Directive) :
    MovedRes (MovedErr ρ env env') (MDirs o ρ) (expandList cs inner f ds) (expandList cs' inner' (ρ f) (movedList (tagOf o ρ) ds)) := by
  refine listInd (P := fun ds => MovedRes (MovedErr ρ env env') (MDirs o ρ) (expandList cs inner f ds) (expandList cs' inner' (ρ f) (movedList (tagOf o ρ) ds))) ?_ ?_ ds
  · exact .ok rfl
  · intro d ds ihb ih
    rw [movedList, expandList_cons, expandList_cons]
    refine MovedRes.bind (R := MDirs o ρ) ?_ fun a b hab => ih.bind fun a' b' hab' => .ok (by rw [hab, hab']; exact (movedList_append ..).symm)
    rw [expandDir_eq, expandDir_eq, moved_block]
    refine MovedRes.bind (R := fun x y => y = movedOpt (tagOf o ρ) x) ?_ ?_
    · cases hb : d.block with
      | none => exact .ok rfl
      | some b =>
        rw [movedOpt, expandOpt, expandOpt]
        exact (ihb b hb).bind fun u v huv => .ok (by rw [huv]; rfl)
    · rintro x y rfl
      have e1 : ({ moved (tagOf o ρ) d with block := movedOpt (tagOf o ρ) x } : Directive) = moved (tagOf o ρ) { d with block := x } := by cases d; rfl
      simp only [e1]
      rw [moved_isInclude, moved_includes]
      split
      · exact .ok rfl
      · exact expandIncludes_mv hcs hin f _ _
end

theorem performIncludes_mv {cs cs' : List Config} (hcs : List.Forall₂ (MConfig ρ o env env') cs cs') (fuel : Nat) : ∀ f ds,
    MovedRes (MovedErr ρ env env') (MDirs o ρ) (performIncludes cs fuel f ds) (performIncludes cs' fuel (ρ f) (movedList (tagOf o ρ) ds)) := by
  induction fuel with
  | zero => intro f ds; exact .fuel
  | succ fuel ih => intro f ds; exact expandList_mv hcs ih f ds

theorem combined_mv {p p' : Payload} (h : MovedPayload (MovedErr ρ env env') ρ (tagOf o ρ) p p') (fuel : Nat) :
    MovedRes (MovedErr ρ env env') (MovedPayload (MovedErr ρ env env') ρ (tagOf o ρ)) (combined fuel p) (combined fuel p') := by
  have hst : p'.config.any (fun c => c.status == c!"failed") = p.config.any (fun c => c.status == c!"failed") := by
    have := h.config
    generalize p.config = a at this ⊢
    generalize p'.config = b at this ⊢
    induction this with
    | nil => rfl
    | cons h _ ih => rw [List.any_cons, List.any_cons, ih, h.status]
  have herr : List.Forall₂ (MCErr ρ env env') (p.config.flatMap (·.errors)) (p'.config.flatMap (·.errors)) := by
    have := h.config
    generalize p.config = a at this ⊢
    generalize p'.config = b at this ⊢
    induction this with
    | nil => exact .nil
    | cons h _ ih => rw [List.flatMap_cons, List.flatMap_cons]; exact List.rel_append h.errors ih
  have hc := h.config
  unfold combined
  rw [hst]
  generalize p.config.flatMap (·.errors) = ea at herr ⊢
  generalize p'.config.flatMap (·.errors) = eb at herr ⊢
  generalize p.config.any (fun c => c.status == c!"failed") = bad
  generalize hA : p.config = a at hc
  generalize hB : p'.config = b at hc
  cases hc with
  | nil => exact .ok h
  | @cons c0 c0' r r' h0 hr =>
    simp only
    rw [h0.file, h0.parsed]
    refine (performIncludes_mv (.cons h0 hr) fuel _ _).bind fun u v huv => .ok ⟨?_, h.errors, .cons ⟨rfl, rfl, herr, huv⟩ .nil⟩
    rw [h.status]

theorem Parse_mv (hM : MovedFiles ρ o env env' dir dir') (h1 : env.mapOrder = id) (h2 : env'.mapOrder = id) {filename : Str} (hd : env.dir filename = dir)
    (hd' : env'.dir (ρ filename) = dir') (fuel : Nat) :
    MovedRes (MovedErr ρ env env') (MovedPayload (MovedErr ρ env env') ρ (tagOf o ρ)) (Parse env fuel filename o) (Parse env' fuel (ρ filename) o) := by
  unfold Parse
  rw [hd, hd']
  obtain ⟨k1, k2⟩ := parseFiles_mv hM fuel (ps := initPS filename) (ps' := initPS (ρ filename)) ⟨[], [], .nil, .nil, rfl⟩ .nil
  generalize parseFiles env o dir fuel (initPS filename) [] = r at k1 k2 ⊢
  generalize parseFiles env' o dir' fuel (initPS (ρ filename)) [] = r' at k1 k2 ⊢
  obtain ⟨r, p⟩ := r
  obtain ⟨r', p'⟩ := r'
  simp only at k1 k2
  obtain ⟨ce, pe, c1, c2, rfl⟩ := k2
  cases k1 with
  | @ok a b hab =>
    simp only
    rw [isAcyclic_mv hM.inj h1 h2, ← hab.length_eq]
    split
    · exact .err .cycle
    · have hp : MovedPayload (MovedErr ρ env env') ρ (tagOf o ρ) ⟨p.payStatus, p.payErrors, a⟩ ⟨p.payStatus, pe, b⟩ := ⟨rfl, c2, hab⟩
      split
      · exact combined_mv hp _
      · exact .ok hp
  | err k => exact .err k
  | panic => exact .panic
  | fuel => exact .fuel

end

end Verif
