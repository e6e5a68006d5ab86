import Verif.Proofs.Grammar
import Verif.Spec.Recovery
/-!
# Runs over statements that are wrong
-/
namespace Verif
open Spec

/-! ## The messages -/

theorem hasSuffix_not {a b : Str} (hb : b.length ≤ notTerminated.length) (h : ¬ b <:+ notTerminated) : hasSuffix (a ++ b) notTerminated = false := by
  rw [← Bool.not_eq_true, hasSuffix, List.isSuffixOf_iff_suffix]
  intro hs
  exact h (List.suffix_of_suffix_length_le (List.suffix_append a b) hs hb)

theorem checkMasks_semi {stmt : Directive} {masks : List Nat} : ∀ {what w : Str}, checkMasks stmt c!";" what masks = some w →
    hasSuffix what notTerminated = false → hasSuffix w notTerminated = false := by
  induction masks with
  | nil => intro what w h hw; cases h; exact hw
  | cons m masks ih =>
    intro what w h hw
    rw [checkMasks] at h
    split at h
    · exact ih h (by
        rw [show (c!"directive \"" ++ stmt.directive ++ c!"\"'s is not enclosed in parentheses" : Str) =
          (c!"directive \"" ++ stmt.directive ++ c!"\"'s is not enclosed in parenthese") ++ c!"s" by simp]
        exact hasSuffix_not (by decide) (by decide))
    · split at h
      · exact ih h (by
          rw [show (c!"directive \"" ++ stmt.directive ++ c!"\" has no opening \"{\"" : Str) =
            (c!"directive \"" ++ stmt.directive ++ c!"\" has no opening \"") ++ c!"{\"" by simp]
          exact hasSuffix_not (by decide) (by decide))
      · split at h
        · rename_i h1; simp at h1
        · split at h
          · cases h
          · split at h
            · exact ih h (by
                rw [show (c!"invalid value \"" ++ stmt.args.headD [] ++ c!"\" in \"" ++ stmt.directive ++ c!"\" directive, it must be \"on\" or \"off\"" : Str) =
                  (c!"invalid value \"" ++ stmt.args.headD [] ++ c!"\" in \"" ++ stmt.directive ++ c!"\" directive, it must be \"on\" or \"of") ++ c!"f\"" by simp]
                exact hasSuffix_not (by decide) (by decide))
            · exact ih h (by
                rw [show (c!"invalid number of arguments in \"" ++ stmt.directive ++ c!"\" directive" : Str) =
                  (c!"invalid number of arguments in \"" ++ stmt.directive ++ c!"\" directiv") ++ c!"e" by simp]
                exact hasSuffix_not (by decide) (by decide))

/-- A statement that ends in `;` is not said to be without one. -/
theorem analyze_semi {fname : Str} {stmt : Directive} {ctx : List Str} {o : ParseOptions} {e : ParseError}
    (h : analyze fname stmt c!";" ctx o = some e) (ho : ¬ OddName stmt.directive) : hasSuffix e.what notTerminated = false := by
  obtain ⟨w, rfl, hw⟩ := analyze_some h
  show hasSuffix w notTerminated = false
  rcases hw with rfl | rfl | ⟨masks, ms, -, -, h⟩
  · rw [← Bool.not_eq_true, hasSuffix, List.isSuffixOf_iff_suffix]
    intro hs
    have h1 : c!" is not terminated by \";" <:+ c!"unknown directive \"" ++ stmt.directive := by
      obtain ⟨x, hx⟩ := hs
      rw [show notTerminated = c!" is not terminated by \";" ++ ['"'] from rfl, ← List.append_assoc] at hx
      exact ⟨x, (List.append_inj' hx rfl).1⟩
    rcases List.suffix_or_suffix_of_suffix h1 (List.suffix_append _ _) with ⟨s, hs⟩ | h2
    · exact ho ⟨s, hs.symm⟩
    · obtain ⟨x, hx⟩ := h1
      obtain ⟨y, hy⟩ := h2
      rw [← hy, ← List.append_assoc] at hx
      have := (List.append_inj' hx rfl).1
      have hl := congrArg List.getLast? this
      cases y with
      | nil =>
        exact ho ⟨[], by rw [List.nil_append]; exact hy⟩
      | cons c y =>
        exfalso
        have hm : '"' ∈ (c :: y : Str) := by
          rw [List.getLast?_append_of_ne_nil _ (by simp)] at hl
          have : (c!"unknown directive \"" : Str).getLast? = some '"' := by decide
          rw [this] at hl
          exact List.mem_of_getLast? hl
        have hall : ∀ k : Nat, k ≤ 19 → '"' ∉ (c!" is not terminated by \";" : Str).take k := by decide
        have htake : (c :: y) = (c!" is not terminated by \";" : Str).take (c :: y).length := by rw [← hy]; simp
        have hk : (c :: y).length ≤ 19 := by
          have := congrArg List.length this
          rw [List.length_append] at this
          have e : (c!"unknown directive \"" : Str).length = 19 := by decide
          omega
        rw [htake] at hm
        exact hall _ hk hm
  · rw [show (c!"\"" ++ stmt.directive ++ c!"\" directive is not allowed here" : Str) = (c!"\"" ++ stmt.directive ++ c!"\" directive is not allowed her") ++ c!"e" by simp]
    exact hasSuffix_not (by decide) (by decide)
  · exact checkMasks_semi h (by decide)

theorem checkMasks_open {stmt : Directive} {masks : List Nat} (hm : ∀ m ∈ masks, m.testBit 8 = false ∧ m.testBit 9 = false) :
    ∀ {what : Str}, masks ≠ [] ∨ hasSuffix what notTerminated = true →
    ∃ w, checkMasks stmt c!"{" what masks = some w ∧ hasSuffix w notTerminated = true := by
  induction masks with
  | nil =>
    intro what h
    exact ⟨what, rfl, h.resolve_left fun h => h rfl⟩
  | cons m masks ih =>
    intro what _
    obtain ⟨h1, h2⟩ := hm m (by simp)
    rw [checkMasks, if_neg, if_neg, if_pos]
    · refine ih (fun m hm' => hm m (by simp [hm'])) (Or.inr ?_)
      rw [hasSuffix, List.isSuffixOf_iff_suffix]
      exact ⟨c!"directive \"" ++ stmt.directive ++ c!"\"", by simp [notTerminated]⟩
    · rw [block_bit', h1]; decide
    · rw [block_bit, h1]; decide
    · rw [expr_bit, h2]; simp

/-- A directive that is ended by `;` in this context, but opens a block, is said to be without a `;`. -/
theorem analyze_open {fname : Str} {stmt : Directive} {ctx : List Str} {o : ParseOptions} {N : List Str → Option (List Str)}
    (h : (rulesOf o N).EndsHere ctx stmt.directive) : ∃ e, analyze fname stmt c!"{" ctx o = some e ∧ hasSuffix e.what notTerminated = true := by
  obtain ⟨hknown, hargs, b, hb, ⟨m0, hm0, hctx⟩, hall⟩ := h
  obtain ⟨hk, hm⟩ := lookupMasks_spec o stmt.directive
  have hknown : Known (sourcesOf o) stmt.directive := hknown
  have hm0 : HasMask (sourcesOf o) stmt.directive m0 := hm0
  have hall : ∀ m, HasMask (sourcesOf o) stmt.directive m → o.skipDirectiveContextCheck = true ∨ m.testBit b = true →
    m.testBit 8 = false ∧ m.testBit 9 = false := hall
  have hargs : o.skipDirectiveArgsCheck = false := hargs
  have hctx : o.skipDirectiveContextCheck = true ∨ m0.testBit b = true := hctx
  obtain ⟨ms, hl⟩ := Option.isSome_iff_exists.mp (hk.mpr hknown)
  rw [hl] at hm
  simp only [Option.getD_some] at hm
  have hlook : contexts.lookup (ctxKey ctx) = some (2 ^ b) := by
    rw [← pathOf_key, contexts_lookup (pathOf_plain ctx), hb]; rfl
  unfold analyze
  rw [hlook, hl]
  simp only [Option.isNone_some, Bool.and_false, Bool.false_eq_true, if_false, hargs]
  generalize hms : (if o.skipDirectiveContextCheck = true then ms else ms.filter (fun mask => (mask &&& 2 ^ b) != 0)) = ms'
  have hin : ∀ m, m ∈ ms' ↔ HasMask (sourcesOf o) stmt.directive m ∧ (o.skipDirectiveContextCheck = true ∨ m.testBit b = true) := by
    intro m
    rw [← hms]
    split
    · rename_i h; simp [hm, h]
    · rename_i h; simp [List.mem_filter, bit_filter, hm, h]
  have hne : ms' ≠ [] := List.ne_nil_of_mem ((hin m0).mpr ⟨hm0, hctx⟩)
  obtain ⟨w, hw, hsuf⟩ := checkMasks_open (stmt := stmt) (masks := ms') (fun m h => hall m ((hin m).mp h).1 ((hin m).mp h).2) (what := []) (Or.inl hne)
  rw [if_neg (by simp [hne]), hw]
  exact ⟨_, rfl, hsuf⟩

theorem analyzeMapBody_line {fname : Str} {d : Directive} {term m : Str} {e : ParseError} (h : analyzeMapBody fname d term m = some e) : e.line = some d.line := by
  unfold analyzeMapBody at h
  split at h
  · cases h
  · split at h
    · cases h; rfl
    · split at h
      · split at h
        · cases h
        · cases h; rfl
      · split at h
        · cases h
        · cases h; rfl

/-! ## The errors that are noted -/

/-- Errors at the lines `ls` were noted; else nothing but the supply of array identities has changed. -/
def Noted (o : ParseOptions) (file : Str) (ls : List Int) (ps ps' : PS) : Prop :=
  ∃ (n : Nat) (es : List GoErr), es.map GoErr.line? = ls.map some ∧ ps' = { es.foldl (handleError o file) ps with nextArr := n }

theorem foldl_handleError_nextArr (o : ParseOptions) (file : Str) (es : List GoErr) : ∀ (ps : PS) (n : Nat),
    es.foldl (handleError o file) { ps with nextArr := n } = { es.foldl (handleError o file) ps with nextArr := n } := by
  induction es with
  | nil => intros; rfl
  | cons e es ih => intro ps n; exact ih (handleError o file ps e) n

theorem foldl_handleError_includes (o : ParseOptions) (file : Str) (es : List GoErr) : ∀ (ps : PS), (es.foldl (handleError o file) ps).includes = ps.includes := by
  induction es with
  | nil => intros; rfl
  | cons e es ih => intro ps; exact ih (handleError o file ps e)

theorem Noted.refl {o : ParseOptions} {file : Str} (ps : PS) : Noted o file [] ps ps := ⟨ps.nextArr, [], rfl, rfl⟩

theorem Quiet.noted {o : ParseOptions} {file : Str} {ps ps' : PS} (h : Quiet ps ps') : Noted o file [] ps ps' := by
  obtain ⟨n, rfl⟩ := h
  exact ⟨n, [], rfl, rfl⟩

theorem Noted.trans {o : ParseOptions} {file : Str} {a b c : PS} {l l' : List Int} (h1 : Noted o file l a b) (h2 : Noted o file l' b c) :
    Noted o file (l ++ l') a c := by
  obtain ⟨n, es, e1, rfl⟩ := h1
  obtain ⟨n', es', e2, rfl⟩ := h2
  refine ⟨n', es ++ es', by rw [List.map_append, List.map_append, e1, e2], ?_⟩
  rw [foldl_handleError_nextArr, List.foldl_append]

theorem Noted.one {o : ParseOptions} {file : Str} {ps : PS} {err : ParseError} {l : Int} (h : err.line = some l) :
    Noted o file [l] ps (handleError o file ps (.parse err)) :=
  ⟨ps.nextArr, [.parse err], by simp [GoErr.line?, h], rfl⟩

theorem Noted.includes {o : ParseOptions} {file : Str} {a b : PS} {l : List Int} (h : Noted o file l a b) : b.includes = a.includes := by
  obtain ⟨n, es, -, rfl⟩ := h
  exact foldl_handleError_includes o file es a

/-! ## The run -/

theorem Spec.Recover.run {env : Env} {o : ParseOptions} {configDir file : Str} (hcomb : o.combineConfigs = false) (hstop : o.stopParsingOnError = false)
    {c : List Str} {ds : List Directive} {ls : List Int} {toks : List Tok} {N : List Str → Option (List Str)} (h : Recover (rulesOf o N) c ds ls toks) :
    ∀ (ctx : Ctx) (ps : PS) (x x' : List Tok), ctx.vals = c → ps.includes = [] → NoInclude o toks → (∀ t ∈ toks, t.error = none) →
    (x = [] ∧ x' = [] ∨ ∃ cl, Mark cl c!"}" ∧ cl.error = none ∧ x = cl :: x') →
    ∃ ps', RunOk env o configDir file ctx (toks ++ x) ps ds x' ps' ∧ Noted o file ls ps ps' := by
  have semiTerm : ∀ {t : Tok}, Mark t c!";" → t.isTerm = true := fun h => isTerm_mark.mpr (Or.inr (Or.inr h))
  have openTerm : ∀ {t : Tok}, Mark t c!"{" → t.isTerm = true := fun h => isTerm_mark.mpr (Or.inl h)
  have notClose : ∀ {t : Tok}, WordTok t → t.is c!"}" = false := fun h => is_mark_false.mpr h.2.2.1
  induction h with
  | nil =>
    intro ctx ps x x' hv hin hno he hx
    rcases hx with ⟨rfl, rfl⟩ | ⟨cl, h1, h2, rfl⟩
    · exact ⟨ps, .eof ctx ps, Noted.refl ps⟩
    · refine ⟨ps, .stop _ _ _ _ _ _ ?_, Noted.refl ps⟩
      exact (StepR.close h2 (is_mark.mpr h1)).step_eq
  | @comment c t text ds ls toks hpc ht hc ih =>
    intro ctx ps x x' hv hin hno he hx
    obtain ⟨ps', h1, h2⟩ := ih ctx ps x x' hv hin (hno.mono (by simp +contextual)) (fun y hy => he y (by simp [hy])) hx
    have hnc : t.is c!"}" = false := by
      rw [is_mark_false]; intro hm; rw [CommentTok, Mark, hm.2] at ht; simp at ht
    have hs := (StepR.comment (env := env) (o := o) (configDir := configDir) (file := file) (ctx := ctx) (t := t)
      (toks := toks ++ x) (ps := ps) (he t (by simp)) hnc (isCommentTok_iff.mpr ⟨text, ht⟩)).step_eq
    have hpc : o.parseComments = true := hpc
    rw [hpc, if_pos rfl] at hs
    have := RunOk.next _ _ _ _ _ _ _ _ _ _ hs h1
    refine ⟨ps', ?_, h2⟩
    simpa [commentStmt, hcomb, ht.2] using this
  | @skip c t text ds ls toks hpc ht hc ih =>
    intro ctx ps x x' hv hin hno he hx
    obtain ⟨ps', h1, h2⟩ := ih ctx ps x x' hv hin (hno.mono (by simp +contextual)) (fun y hy => he y (by simp [hy])) hx
    have hnc : t.is c!"}" = false := by
      rw [is_mark_false]; intro hm; rw [CommentTok, Mark, hm.2] at ht; simp at ht
    have hs := (StepR.comment (env := env) (o := o) (configDir := configDir) (file := file) (ctx := ctx) (t := t)
      (toks := toks ++ x) (ps := ps) (he t (by simp)) hnc (isCommentTok_iff.mpr ⟨text, ht⟩)).step_eq
    have hpc : o.parseComments = false := hpc
    rw [hpc, if_neg (by simp)] at hs
    have := RunOk.next _ _ _ _ _ _ _ _ _ _ hs h1
    exact ⟨ps', by simpa using this, h2⟩
  | @param c m t mid args texts semi ds ls toks hm hw hwords hsemi hargs hc ih =>
    intro ctx ps x x' hv hin hno he hx
    obtain ⟨ps', h1, h2⟩ := ih ctx ps x x' hv hin (hno.mono (by simp +contextual)) (fun y hy => he y (by simp [hy])) hx
    have R : Reads o t (mid ++ semi :: (toks ++ x)) args (if o.parseComments then texts else []) semi (toks ++ x) := by
      refine ⟨he t (by simp), notClose hw, (wordTok_iff.mp hw).2, ?_⟩
      simpa using hwords.read (semiTerm hsemi) (toks ++ x) [] []
    have han : analyzeMapBody file (baseStmt o file t args) semi.value m = none := by
      rw [C27_decision _ _ _ _ hm.2]
      exact ⟨hsemi.2, hargs⟩
    have hs := (StepR.mapOk (env := env) (configDir := configDir) (ctx := ctx) (ps := ps) _ _ _ _ m R (by rw [hv]; exact (mapCtx_eq _ _).mpr hm) han).step_eq
    have := RunOk.next _ _ _ _ _ _ _ _ _ _ hs h1
    rw [baseStmt_plain hcomb] at this
    exact ⟨ps', by simpa using this, h2⟩
  | @ignored c t mid args texts semi ds ls toks hm hig hw hwords hsemi hc ih =>
    intro ctx ps x x' hv hin hno he hx
    obtain ⟨ps', h1, h2⟩ := ih ctx ps x x' hv hin (hno.mono (by simp +contextual)) (fun y hy => he y (by simp [hy])) hx
    have R : Reads o t (mid ++ semi :: (toks ++ x)) args (if o.parseComments then texts else []) semi (toks ++ x) := by
      refine ⟨he t (by simp), notClose hw, (wordTok_iff.mp hw).2, ?_⟩
      simpa using hwords.read (semiTerm hsemi) (toks ++ x) [] []
    have hs := (StepR.ignored (env := env) (configDir := configDir) (file := file) (ctx := ctx) (ps := ps) _ _ _ _ R (by rw [hv]; exact mapCtx_none.mpr hm)
      (contains_iff.mpr hig)).step_eq
    rw [skipBlock_semi hsemi] at hs
    have := RunOk.next _ _ _ _ _ _ _ _ _ _ hs h1
    exact ⟨ps', by simpa using this, h2⟩
  | @ignoredBlock c t mid args texts opening inner closing ds ls toks hm hig hw hwords hopen hinner hclose hc ih =>
    intro ctx ps x x' hv hin hno he hx
    obtain ⟨ps', h1, h2⟩ := ih ctx ps x x' hv hin (hno.mono (by simp +contextual)) (fun y hy => he y (by simp [hy])) hx
    have R : Reads o t (mid ++ opening :: (inner ++ closing :: (toks ++ x))) args (if o.parseComments then texts else []) opening
        (inner ++ closing :: (toks ++ x)) := by
      refine ⟨he t (by simp), notClose hw, (wordTok_iff.mp hw).2, ?_⟩
      simpa using hwords.read (openTerm hopen) (inner ++ closing :: (toks ++ x)) [] []
    have hs := (StepR.ignored (env := env) (configDir := configDir) (file := file) (ctx := ctx) (ps := ps) _ _ _ _ R (by rw [hv]; exact mapCtx_none.mpr hm)
      (contains_iff.mpr hig)).step_eq
    rw [skipBlock_open hopen hinner hclose (fun y hy => he y (by simp [hy]))] at hs
    have := RunOk.next _ _ _ _ _ _ _ _ _ _ hs h1
    exact ⟨ps', by simpa using this, h2⟩
  | @simple c t mid args args' texts semi ds ls toks hm hig hw hwords hsemi hok hargs hfound hc ih =>
    intro ctx ps x x' hv hin hno he hx
    obtain ⟨ps', h1, h2⟩ := ih ctx ps x x' hv hin (hno.mono (by simp +contextual)) (fun y hy => he y (by simp [hy])) hx
    have R : Reads o t (mid ++ semi :: (toks ++ x)) args (if o.parseComments then texts else []) semi (toks ++ x) := by
      refine ⟨he t (by simp), notClose hw, (wordTok_iff.mp hw).2, ?_⟩
      simpa using hwords.read (semiTerm hsemi) (toks ++ x) [] []
    have han : analyze file (baseStmt o file t args) semi.value ctx.vals o = none := by
      rw [analyze_rules, hsemi.2, hv]
      exact hok
    have hs := (StepR.simple (env := env) (configDir := configDir) (ctx := ctx) (ps := ps) _ _ _ _ _ _ _ R (by rw [hv]; exact mapCtx_none.mpr hm)
      (contains_false_iff.mpr hig) han (prepIf_iff.mpr ⟨args', hargs, rfl⟩) (hno.doInclude args' ps)
      (by rw [is_mark_false]; intro h; have := hsemi.2; rw [h.2] at this; cases this)).step_eq
    have := RunOk.next _ _ _ _ _ _ _ _ _ _ hs h1
    rw [commentDirectives_at hcomb _ _ _ N, baseStmt_plain hcomb] at this
    exact ⟨ps', by simpa using this, h2⟩
  | @block c t mid args args' texts opening b lb inner closing ds ls toks hm hig hw hwords hopen hok hargs hfound hb hclose hc ihb ih =>
    intro ctx ps x x' hv hin hno he hx
    have hq := enterBlockCtx_quiet (baseStmt o file t args') ctx ps hin
    obtain ⟨ps1, i1, i2⟩ := ihb (enterBlockCtx (baseStmt o file t args') ctx ps).1 (enterBlockCtx (baseStmt o file t args') ctx ps).2
      (closing :: (toks ++ x)) (toks ++ x) (by rw [enterBlockCtx_vals, hv, baseStmt_directive]) (by rw [hq.includes, hin])
      (hno.mono (by simp +contextual)) (fun y hy => he y (by simp [hy])) (Or.inr ⟨closing, hclose, he closing (by simp), rfl⟩)
    obtain ⟨ps', h1, h2⟩ := ih ctx ps1 x x' hv (by rw [i2.includes, hq.includes, hin]) (hno.mono (by simp +contextual)) (fun y hy => he y (by simp [hy])) hx
    have R : Reads o t (mid ++ opening :: (inner ++ closing :: (toks ++ x))) args (if o.parseComments then texts else []) opening
        (inner ++ closing :: (toks ++ x)) := by
      refine ⟨he t (by simp), notClose hw, (wordTok_iff.mp hw).2, ?_⟩
      simpa using hwords.read (openTerm hopen) (inner ++ closing :: (toks ++ x)) [] []
    have han : analyze file (baseStmt o file t args) opening.value ctx.vals o = none := by
      rw [analyze_rules, hopen.2, hv]
      exact hok
    have hs := (StepR.block (env := env) (configDir := configDir) (ctx := ctx) (ps := ps) _ _ _ _ _ _ _ R (by rw [hv]; exact mapCtx_none.mpr hm)
      (contains_false_iff.mpr hig) han (prepIf_iff.mpr ⟨args', hargs, rfl⟩) (hno.doInclude args' ps) (is_mark.mpr hopen)).step_eq
    have := RunOk.block _ _ _ _ _ _ _ _ _ _ _ _ _ _ hs i1 h1
    rw [commentDirectives_at hcomb _ _ _ N, baseStmt_plain hcomb] at this
    exact ⟨ps', by simpa using this, (hq.noted.trans i2).trans h2⟩
  | @wrong c t mid args texts semi ds ls toks hm hig hw hwords hsemi hbad hodd hc ih =>
    intro ctx ps x x' hv hin hno he hx
    have R : Reads o t (mid ++ semi :: (toks ++ x)) args (if o.parseComments then texts else []) semi (toks ++ x) := by
      refine ⟨he t (by simp), notClose hw, (wordTok_iff.mp hw).2, ?_⟩
      simpa using hwords.read (semiTerm hsemi) (toks ++ x) [] []
    obtain ⟨err, han⟩ : ∃ err, analyze file (baseStmt o file t args) semi.value ctx.vals o = some err := by
      rw [← Option.isSome_iff_exists, ← Option.ne_none_iff_isSome, ne_eq, analyze_rules _ _ _ _ _ N, hsemi.2, hv]
      exact hbad
    have hline : err.line = some t.line := by
      obtain ⟨w, rfl, -⟩ := analyze_some han
      rfl
    have hsuf : hasSuffix err.what notTerminated = false := by
      rw [hsemi.2] at han
      exact analyze_semi han hodd
    have hs := (StepR.reject (env := env) (configDir := configDir) (ctx := ctx) (ps := ps) _ _ _ _ err R (by rw [hv]; exact mapCtx_none.mpr hm)
      (contains_false_iff.mpr hig) han hstop hsuf).step_eq
    obtain ⟨ps', h1, h2⟩ := ih ctx (handleError o file ps (.parse err)) x x' hv hin (hno.mono (by simp +contextual)) (fun y hy => he y (by simp [hy])) hx
    have := RunOk.next _ _ _ _ _ _ _ _ _ _ hs h1
    exact ⟨ps', by simpa using this, (Noted.one hline).trans h2⟩
  | @wrongBlock c t mid args texts opening inner closing ds ls toks hm hig hw hwords hopen hends hinner hclose hc ih =>
    intro ctx ps x x' hv hin hno he hx
    have R : Reads o t (mid ++ opening :: (inner ++ closing :: (toks ++ x))) args (if o.parseComments then texts else []) opening
        (inner ++ closing :: (toks ++ x)) := by
      refine ⟨he t (by simp), notClose hw, (wordTok_iff.mp hw).2, ?_⟩
      simpa using hwords.read (openTerm hopen) (inner ++ closing :: (toks ++ x)) [] []
    obtain ⟨err, han, hsuf⟩ := analyze_open (fname := file) (stmt := baseStmt o file t args) (o := o) (N := N) hends
    have hline : err.line = some t.line := by
      obtain ⟨w, rfl, -⟩ := analyze_some han
      rfl
    rw [← hopen.2, ← hv] at han
    have hs := (StepR.rejectSkip (env := env) (configDir := configDir) (ctx := ctx) (ps := ps) _ _ _ _ err R (by rw [hv]; exact mapCtx_none.mpr hm)
      (contains_false_iff.mpr hig) han hstop hsuf (by rw [hopen.1, hopen.2]; decide)).step_eq
    have hskip := skipBlock_open hopen hinner hclose (fun y hy => he y (by simp [hy])) (toks ++ x)
    rw [skipBlock, if_pos (is_mark.mpr hopen)] at hskip
    rw [hskip] at hs
    obtain ⟨ps', h1, h2⟩ := ih ctx (handleError o file ps (.parse err)) x x' hv hin (hno.mono (by simp +contextual)) (fun y hy => he y (by simp [hy])) hx
    have := RunOk.next _ _ _ _ _ _ _ _ _ _ hs h1
    exact ⟨ps', by simpa using this, (Noted.one hline).trans h2⟩
  | @wrongParam c m t mid args texts semi ds ls toks hm hw hwords hsemi hargs hc ih =>
    intro ctx ps x x' hv hin hno he hx
    have R : Reads o t (mid ++ semi :: (toks ++ x)) args (if o.parseComments then texts else []) semi (toks ++ x) := by
      refine ⟨he t (by simp), notClose hw, (wordTok_iff.mp hw).2, ?_⟩
      simpa using hwords.read (semiTerm hsemi) (toks ++ x) [] []
    obtain ⟨err, han⟩ : ∃ err, analyzeMapBody file (baseStmt o file t args) semi.value m = some err := by
      rw [← Option.isSome_iff_exists, ← Option.ne_none_iff_isSome, ne_eq, C27_decision _ _ _ _ hm.2]
      exact fun h => hargs h.2
    have hs := (StepR.mapBad (env := env) (configDir := configDir) (ctx := ctx) (ps := ps) _ _ _ _ m err R (by rw [hv]; exact (mapCtx_eq _ _).mpr hm) han
      hstop).step_eq
    rw [skipBlock_semi hsemi] at hs
    obtain ⟨ps', h1, h2⟩ := ih ctx (handleError o file ps (.parse err)) x x' hv hin (hno.mono (by simp +contextual)) (fun y hy => he y (by simp [hy])) hx
    have := RunOk.next _ _ _ _ _ _ _ _ _ _ hs h1
    exact ⟨ps', by simpa using this, (Noted.one (analyzeMapBody_line han)).trans h2⟩
  | @wrongParamBlock c m t mid args texts opening inner closing ds ls toks hm hw hwords hopen hinner hclose hc ih =>
    intro ctx ps x x' hv hin hno he hx
    have R : Reads o t (mid ++ opening :: (inner ++ closing :: (toks ++ x))) args (if o.parseComments then texts else []) opening
        (inner ++ closing :: (toks ++ x)) := by
      refine ⟨he t (by simp), notClose hw, (wordTok_iff.mp hw).2, ?_⟩
      simpa using hwords.read (openTerm hopen) (inner ++ closing :: (toks ++ x)) [] []
    obtain ⟨err, han⟩ : ∃ err, analyzeMapBody file (baseStmt o file t args) opening.value m = some err := by
      rw [← Option.isSome_iff_exists, ← Option.ne_none_iff_isSome, ne_eq, C27_decision _ _ _ _ hm.2, hopen.2]
      rintro ⟨h, -⟩
      cases h
    have hs := (StepR.mapBad (env := env) (configDir := configDir) (ctx := ctx) (ps := ps) _ _ _ _ m err R (by rw [hv]; exact (mapCtx_eq _ _).mpr hm) han
      hstop).step_eq
    rw [skipBlock_open hopen hinner hclose (fun y hy => he y (by simp [hy]))] at hs
    obtain ⟨ps', h1, h2⟩ := ih ctx (handleError o file ps (.parse err)) x x' hv hin (hno.mono (by simp +contextual)) (fun y hy => he y (by simp [hy])) hx
    have := RunOk.next _ _ _ _ _ _ _ _ _ _ hs h1
    exact ⟨ps', by simpa using this, (Noted.one (analyzeMapBody_line han)).trans h2⟩

end Verif
