import Verif.Spec.SourceOrder
import Verif.Proofs.Outcome
/-!
# Parsing with sources in another order
-/
namespace Verif
open Spec

/-! ## Checks -/

theorem contextBit_large {path : List Str} {b : Nat} (h : contextBit path = some b) : 16 ≤ b := by
  have key : ∀ (c : Prop) [Decidable c] (k : Nat) (r : Option Nat), 16 ≤ k → (∀ b, r = some b → 16 ≤ b) → ∀ b, (if c then some k else r) = some b → 16 ≤ b := by
    intro c _ k r hk hr b h
    split at h
    · cases h; exact hk
    · exact hr b h
  have all : ∀ b, contextBit path = some b → 16 ≤ b := by
    unfold contextBit
    iterate 16 refine key _ _ _ (by decide) ?_
    intro b h
    cases h
  exact all b h

theorem mem_masks {o : ParseOptions} {N : List Str → Option (List Str)} {n : Str} {m : Nat} : m ∈ (rulesOf o N).masks n ↔ HasMask (sourcesOf o) n m := by
  rw [← lookupMasks_masks]
  exact (lookupMasks_spec o n).2 m

theorem Unended_mono {o : ParseOptions} {new : List MatchFunc} (hs : SameMasks (sourcesOf o) (sourcesOf { o with directiveSources := new }))
    (hu : OneEnding o.skipDirectiveContextCheck (sourcesOf o)) {N : List Str → Option (List Str)} {ctx : List Str} {n : Str} {args : List Str} {term : Str}
    (h : (rulesOf o N).Unended ctx n args term) : (rulesOf { o with directiveSources := new } N).Unended ctx n args term := by
  rcases h with ⟨h1, h2, h3⟩ | ⟨h1, h2, b, m, h3, h4, h5, h6⟩
  · exact .inl ⟨h1, fun hk => h2 ((hs.known n).mpr hk), h3⟩
  · have hm := List.mem_filter.mp (List.mem_of_getLast? h4)
    have hm1 : HasMask (sourcesOf o) n m := mem_masks.mp hm.1
    have hx : m ∈ ((rulesOf { o with directiveSources := new } N).masks n).filter fun m => o.skipDirectiveContextCheck || m.testBit b :=
      List.mem_filter.mpr ⟨mem_masks.mpr ((hs.masks n m).mp hm1), hm.2⟩
    obtain ⟨m', hl⟩ : ∃ m', (((rulesOf { o with directiveSources := new } N).masks n).filter fun m => o.skipDirectiveContextCheck || m.testBit b).getLast? = some m' :=
      ⟨_, List.getLast?_eq_some_getLast (List.ne_nil_of_mem hx)⟩
    have hm' := List.mem_filter.mp (List.mem_of_getLast? hl)
    have hm1' : HasMask (sourcesOf o) n m' := (hs.masks n m').mpr (mem_masks.mp hm'.1)
    have hb : o.skipDirectiveContextCheck = true ∨ ∃ b, 16 ≤ b ∧ m'.testBit b = true ∧ m.testBit b = true := by
      cases hc : o.skipDirectiveContextCheck with
      | true => exact .inl rfl
      | false =>
        refine .inr ⟨b, contextBit_large h3, ?_, ?_⟩
        · have := hm'.2; rw [hc] at this; simpa using this
        · have := hm.2; rw [show (rulesOf o N).skipCtx = o.skipDirectiveContextCheck from rfl, hc] at this; simpa using this
    obtain ⟨e1, e2⟩ := hu n m' m hm1' hm1 hb
    rw [h5] at e1
    exact .inr ⟨(hs.known n).mp h1, h2, b, m', h3, hl, e1, fun h9 => by rw [e2 e1] at h9; cases h9⟩

/-- The outcome of the check is the same up to the message; and if parsing goes on, the messages agree in whether a `;` is missing. -/
inductive AnRel (stop : Bool) : Option ParseError → Option ParseError → Prop
  | none : AnRel stop none none
  | some {e : ParseError} {w : Str} : (stop = true ∨ hasSuffix e.what notTerminated = hasSuffix w notTerminated) → AnRel stop (some e) (some { e with what := w })

theorem Spec.SameMasks.symm {fs gs : List (Str → Option (List Nat))} (h : SameMasks fs gs) : SameMasks gs fs := ⟨fun n => (h.known n).symm, fun n m => (h.masks n m).symm⟩

theorem Spec.OneEnding.congr {b : Bool} {fs gs : List (Str → Option (List Nat))} (h : SameMasks fs gs) (hu : OneEnding b fs) : OneEnding b gs :=
  fun n m m' h1 h2 => hu n m m' ((h.masks n m).mpr h1) ((h.masks n m').mpr h2)

theorem analyze_order {o : ParseOptions} {new : List MatchFunc} (hs : SameMasks (sourcesOf o) (sourcesOf { o with directiveSources := new }))
    (hu : o.stopParsingOnError = true ∨ OneEnding o.skipDirectiveContextCheck (sourcesOf o)) (file : Str) (stmt : Directive) (term : Str) (ctx : List Str) :
    AnRel o.stopParsingOnError (analyze file stmt term ctx o) (analyze file stmt term ctx { o with directiveSources := new }) := by
  have hiff : analyze file stmt term ctx o = none ↔ analyze file stmt term ctx { o with directiveSources := new } = none := by
    obtain ⟨bit, hb⟩ := lookup_bit ctx
    rw [analyze_iff _ _ _ _ _ bit hb, analyze_iff _ _ _ _ _ bit hb]
    unfold StmtOk
    simp only [hs.known, hs.masks]
  cases h : analyze file stmt term ctx o with
  | none => rw [hiff.mp h]; exact .none
  | some e =>
    cases h' : analyze file stmt term ctx { o with directiveSources := new } with
    | none => rw [hiff.mpr h'] at h; cases h
    | some e' =>
      obtain ⟨w, rfl, -⟩ := analyze_some h
      obtain ⟨w', rfl, -⟩ := analyze_some h'
      refine AnRel.some (e := stmtError w file stmt (getLastBlock ctx)) (w := w') (hu.imp id fun hu => ?_)
      have u := analyze_unended (N := fun _ => none) h
      have u' := analyze_unended (N := fun _ => none) h'
      rw [Bool.eq_iff_iff, u]
      exact ⟨fun k => u'.mpr (Unended_mono hs hu k), fun k => Unended_mono (o := { o with directiveSources := new }) (new := o.directiveSources) hs.symm (Spec.OneEnding.congr hs hu) (u'.mp k)⟩

/-! ## States -/

abbrev OCErr (e e' : ConfigError) : Prop := e'.line = e.line ∧ OtherText e.error e'.error

abbrev OPErr (e e' : PayloadError) : Prop := e'.file = e.file ∧ e'.line = e.line ∧ OtherText e.error e'.error

/-- States that differ only in messages. -/
def PSOt (a b : PS) : Prop :=
  ∃ ce pe, List.Forall₂ OCErr a.cfgErrors ce ∧ List.Forall₂ OPErr a.payErrors pe ∧ b = { a with cfgErrors := ce, payErrors := pe }

theorem Spec.OtherText.line {e e' : GoErr} (h : OtherText e e') : e'.line? = e.line? := by cases h <;> rfl

theorem handleError_ot (o : ParseOptions) (file : Str) {ps ps' : PS} (h : PSOt ps ps') {e e' : GoErr} (he : OtherText e e') :
    PSOt (handleError o file ps e) (handleError o file ps' e') := by
  obtain ⟨ce, pe, h1, h2, rfl⟩ := h
  refine ⟨ce ++ [⟨e'.line?, e'⟩], pe ++ [⟨file, e'.line?, e', o.errorCallback.map (fun cb => cb ps.calls e')⟩], ?_, ?_, rfl⟩
  · exact List.rel_append h1 (.cons ⟨he.line, he⟩ .nil)
  · exact List.rel_append h2 (.cons ⟨rfl, he.line, he⟩ .nil)

theorem addInclude_ot (file : Str) (ctx : Ctx) (stmt : Directive) (ps : PS) (fname : Str) (ce : List ConfigError) (pe : List PayloadError) :
    addInclude file ctx stmt { ps with cfgErrors := ce, payErrors := pe } fname =
        ((addInclude file ctx stmt ps fname).1, { (addInclude file ctx stmt ps fname).2 with cfgErrors := ce, payErrors := pe }) ∧
      (addInclude file ctx stmt ps fname).2.cfgErrors = ps.cfgErrors ∧ (addInclude file ctx stmt ps fname).2.payErrors = ps.payErrors := by
  unfold addInclude
  simp only
  cases ps.included.lookup fname <;> exact ⟨rfl, rfl, rfl⟩

theorem addIncludes_ot (file : Str) (ctx : Ctx) (ce : List ConfigError) (pe : List PayloadError) (names : List Str) : ∀ (stmt : Directive) (ps : PS),
    addIncludes file ctx stmt { ps with cfgErrors := ce, payErrors := pe } names =
        ((addIncludes file ctx stmt ps names).1, { (addIncludes file ctx stmt ps names).2 with cfgErrors := ce, payErrors := pe }) ∧
      (addIncludes file ctx stmt ps names).2.cfgErrors = ps.cfgErrors ∧ (addIncludes file ctx stmt ps names).2.payErrors = ps.payErrors := by
  induction names with
  | nil => intro stmt ps; exact ⟨rfl, rfl, rfl⟩
  | cons n ns ih =>
    intro stmt ps
    obtain ⟨h1, h2, h3⟩ := addInclude_ot file ctx stmt ps n ce pe
    obtain ⟨k1, k2, k3⟩ := ih (addInclude file ctx stmt ps n).1 (addInclude file ctx stmt ps n).2
    rw [addIncludes, addIncludes, h1]
    exact ⟨k1, k2.trans h2, k3.trans h3⟩

theorem PSOt.addIncludes {file : Str} {ctx : Ctx} {stmt : Directive} {ps ps' : PS} (h : PSOt ps ps') (names : List Str) :
    (addIncludes file ctx stmt ps' names).1 = (addIncludes file ctx stmt ps names).1 ∧ PSOt (addIncludes file ctx stmt ps names).2 (addIncludes file ctx stmt ps' names).2 := by
  obtain ⟨ce, pe, h1, h2, rfl⟩ := h
  obtain ⟨k1, k2, k3⟩ := addIncludes_ot file ctx ce pe names stmt ps
  rw [k1]
  exact ⟨rfl, ce, pe, by rw [k2]; exact h1, by rw [k3]; exact h2, rfl⟩

theorem doInclude_ot (env : Env) (o : ParseOptions) (dir file : Str) (ctx : Ctx) (stmt : Directive) {ps ps' : PS} (h : PSOt ps ps') :
    (doInclude env o dir file ctx stmt ps').1 = (doInclude env o dir file ctx stmt ps).1 ∧ PSOt (doInclude env o dir file ctx stmt ps).2 (doInclude env o dir file ctx stmt ps').2 := by
  unfold doInclude
  split
  · cases stmt.args with
    | nil => exact ⟨rfl, h⟩
    | cons a as =>
      simp only
      generalize (if !env.isAbs a then env.join dir a else a) = p
      obtain ⟨ce, pe, h1, h2, rfl⟩ := h
      have hg' : PSOt { ps with globs := ps.globs + 1 } { ps with cfgErrors := ce, payErrors := pe, globs := ps.globs + 1 } := ⟨ce, pe, h1, h2, rfl⟩
      have ho' : PSOt { ps with opens := ps.opens + 1 } { ps with cfgErrors := ce, payErrors := pe, opens := ps.opens + 1 } := ⟨ce, pe, h1, h2, rfl⟩
      split
      · cases env.glob ps.globs p with
        | error x => exact ⟨rfl, hg'⟩
        | ok names =>
          obtain ⟨k1, k2⟩ := hg'.addIncludes (file := file) (ctx := ctx) (stmt := stmt) (sortStrings names)
          exact ⟨congrArg Res.ok k1, k2⟩
      · cases env.openFile ps.opens p with
        | error x =>
          simp only
          cases o.stopParsingOnError with
          | true => exact ⟨rfl, ho'⟩
          | false => exact ⟨rfl, handleError_ot o file ho' .same⟩
        | ok d =>
          obtain ⟨k1, k2⟩ := ho'.addIncludes (file := file) (ctx := ctx) (stmt := stmt) [p]
          exact ⟨congrArg Res.ok k1, k2⟩
  · exact ⟨rfl, h⟩

theorem enterBlockCtx_ot (stmt : Directive) (ctx : Ctx) {ps ps' : PS} (h : PSOt ps ps') :
    (enterBlockCtx stmt ctx ps').1 = (enterBlockCtx stmt ctx ps).1 ∧ PSOt (enterBlockCtx stmt ctx ps).2 (enterBlockCtx stmt ctx ps').2 := by
  obtain ⟨ce, pe, h1, h2, rfl⟩ := h
  unfold enterBlockCtx
  simp only
  split
  · exact ⟨rfl, ce, pe, h1, h2, rfl⟩
  · split
    · exact ⟨rfl, ce, pe, h1, h2, rfl⟩
    · exact ⟨rfl, ce, pe, h1, h2, rfl⟩

/-! ## Rounds -/

/-- Rounds that differ only in messages. -/
inductive StepOt : Step → Step → Prop
  | stop {toks ps ps'} : PSOt ps ps' → StepOt (.stop toks ps) (.stop toks ps')
  | fail {e e' toks ps ps'} : Option.Rel OtherText e e' → PSOt ps ps' → StepOt (.fail e toks ps) (.fail e' toks ps')
  | next {new toks ps ps'} : PSOt ps ps' → StepOt (.next new toks ps) (.next new toks ps')
  | block {stmt comments toks ps ps'} : PSOt ps ps' → StepOt (.block stmt comments toks ps) (.block stmt comments toks ps')

section
variable {o : ParseOptions} {new : List MatchFunc}

theorem step_ot (hA : ∀ file stmt term ctx, AnRel o.stopParsingOnError (analyze file stmt term ctx o) (analyze file stmt term ctx { o with directiveSources := new }))
    (env : Env) (dir file : Str) (ctx : Ctx) (t : Tok) (toks : List Tok) {ps ps' : PS} (h : PSOt ps ps') :
    StepOt (step env o dir file ctx t toks ps) (step env { o with directiveSources := new } dir file ctx t toks ps') := by
  unfold step
  cases t.error with
  | some e => exact .fail (.some .same) h
  | none =>
    simp only
    split
    · exact .stop h
    split
    · exact .next h
    cases readArgs o.parseComments [] [] toks with
    | none => exact .fail (.some .same) h
    | some r =>
    obtain ⟨args, comments, term, rest⟩ := r
    simp only
    have hb : baseStmt { o with directiveSources := new } file t args = baseStmt o file t args := rfl
    rw [hb]
    generalize baseStmt o file t args = stmt
    unfold stepStmt
    cases mapCtx ctx.vals with
    | some m =>
      simp only
      cases analyzeMapBody file stmt term.value m with
      | some err =>
        simp only
        split
        · exact .fail (.some .same) h
        · exact .next (handleError_ot o file h .same)
      | none => exact .next h
    | none =>
      simp only
      split
      · exact .next h
      have hr := hA file stmt term.value ctx.vals
      generalize analyze file stmt term.value ctx.vals o = r at hr ⊢
      generalize analyze file stmt term.value ctx.vals { o with directiveSources := new } = r' at hr ⊢
      cases hr with
      | @some err w hw =>
        simp only
        cases hs : o.stopParsingOnError with
        | true =>
          simp only [Bool.not_true, Bool.false_eq_true, if_false]
          exact .fail (.some .text) h
        | false =>
          rw [hs] at hw
          rcases hw with hw | hw
          · cases hw
          · simp only [Bool.not_false, if_true]
            rw [hw]
            have hh : PSOt (handleError o file ps (.parse err)) (handleError { o with directiveSources := new } file ps' (.parse { err with what := w })) :=
              handleError_ot o file h .text
            split
            · split
              · exact .next hh
              · exact .stop hh
            · exact .next hh
      | none =>
        simp only
        cases prepIf stmt with
        | none => exact .fail .none h
        | some s1 =>
          simp only
          obtain ⟨k1, k2⟩ := doInclude_ot env o dir file ctx s1 h
          have hd : doInclude env { o with directiveSources := new } dir file ctx s1 ps' = doInclude env o dir file ctx s1 ps' := rfl
          rw [hd]
          generalize doInclude env o dir file ctx s1 ps = r at k1 k2 ⊢
          generalize doInclude env o dir file ctx s1 ps' = r' at k1 k2 ⊢
          obtain ⟨r, p⟩ := r
          obtain ⟨r', p'⟩ := r'
          simp only at k1 k2
          subst k1
          cases r' with
          | ok s2 =>
            simp only
            split
            · exact .block k2
            · exact .next k2
          | err e => exact .fail (.some .same) k2
          | panic => exact .fail .none k2
          | fuel => exact .fail .none k2

/-! ## Files -/

/-- Results of `parse` that differ only in messages. -/
def OutOt (r r' : Res (List Directive) × List Tok × PS) : Prop := OtherTextRes (fun a b => b = a) r.1 r'.1 ∧ r'.2.1 = r.2.1 ∧ PSOt r.2.2 r'.2.2

theorem parse_ot (hA : ∀ file stmt term ctx, AnRel o.stopParsingOnError (analyze file stmt term ctx o) (analyze file stmt term ctx { o with directiveSources := new }))
    (env : Env) (dir file : Str) (fuel : Nat) : ∀ (ctx : Ctx) (toks : List Tok) (parsed : List Directive) {ps ps' : PS}, PSOt ps ps' →
    OutOt (parse env o dir file fuel ctx toks parsed ps) (parse env { o with directiveSources := new } dir file fuel ctx toks parsed ps') := by
  induction fuel with
  | zero => intro ctx toks parsed ps ps' h; exact ⟨.fuel, rfl, h⟩
  | succ fuel ih =>
    intro ctx toks parsed ps ps' h
    cases toks with
    | nil => exact ⟨.ok rfl, rfl, h⟩
    | cons t toks =>
      rw [parse_step, parse_step]
      have hs := step_ot hA env dir file ctx t toks h
      generalize step env o dir file ctx t toks ps = s at hs ⊢
      generalize step env { o with directiveSources := new } dir file ctx t toks ps' = s' at hs ⊢
      cases hs with
      | stop k1 => exact ⟨.ok rfl, rfl, k1⟩
      | fail k1 k2 =>
        cases k1 with
        | none => exact ⟨.panic, rfl, k2⟩
        | some k1 => exact ⟨.err k1, rfl, k2⟩
      | @next new' toks1 p p' k1 => exact ih ctx toks1 (parsed ++ new') k1
      | @block stmt comments toks1 p p' k1 =>
        simp only
        obtain ⟨e1, e2⟩ := enterBlockCtx_ot stmt ctx k1
        rw [e1]
        obtain ⟨i1, i2, i4⟩ := ih (enterBlockCtx stmt ctx p).1 toks1 [] e2
        generalize parse env o dir file fuel (enterBlockCtx stmt ctx p).1 toks1 [] (enterBlockCtx stmt ctx p).2 = r at i1 i2 i4 ⊢
        generalize parse env { o with directiveSources := new } dir file fuel (enterBlockCtx stmt ctx p).1 toks1 [] (enterBlockCtx stmt ctx p').2 = r' at i1 i2 i4 ⊢
        obtain ⟨r, u, q⟩ := r
        obtain ⟨r', u', q'⟩ := r'
        simp only at i1 i2 i4
        subst i2
        cases i1 with
        | @ok b b' hb => subst hb; exact ih ctx u' _ i4
        | err k => exact ⟨.err k, rfl, i4⟩
        | panic => exact ⟨.panic, rfl, i4⟩
        | fuel => exact ⟨.fuel, rfl, i4⟩

theorem parseFiles_ot (hA : ∀ file stmt term ctx, AnRel o.stopParsingOnError (analyze file stmt term ctx o) (analyze file stmt term ctx { o with directiveSources := new }))
    (env : Env) (dir : Str) (fuel : Nat) : ∀ {ps ps' : PS} {cs cs' : List Config}, PSOt ps ps' → List.Forall₂ OtherTextConfig cs cs' →
    OtherTextRes (List.Forall₂ OtherTextConfig) (parseFiles env o dir fuel ps cs).1 (parseFiles env { o with directiveSources := new } dir fuel ps' cs').1 ∧
      PSOt (parseFiles env o dir fuel ps cs).2 (parseFiles env { o with directiveSources := new } dir fuel ps' cs').2 := by
  induction fuel with
  | zero => intro ps ps' cs cs' h1 h2; exact ⟨.fuel, h1⟩
  | succ fuel ih =>
    intro ps ps' cs cs' h1 h2
    obtain ⟨ce, pe, c1, c2, rfl⟩ := h1
    unfold parseFiles
    simp only
    cases hi : ps.includes with
    | nil => exact ⟨.ok h2, ce, pe, c1, c2, by simp only [hi]⟩
    | cons incl rest =>
      simp only
      cases env.openFile ps.opens incl.path with
      | error x => exact ⟨.err .same, ce, pe, c1, c2, rfl⟩
      | ok d =>
        simp only
        generalize (lexWith (extLexersOf o.lexers) d.runes).length + 1 = n
        obtain ⟨i1, -, i3⟩ := parse_ot hA env dir incl.path n incl.ctx (lexWith (extLexersOf o.lexers) d.runes) []
          (ps := { ps with includes := rest, opens := ps.opens + 1, cfgStatus := c!"ok", cfgErrors := [] })
          (ps' := { ps with includes := rest, opens := ps.opens + 1, cfgStatus := c!"ok", cfgErrors := [], payErrors := pe }) ⟨[], pe, .nil, c2, rfl⟩
        generalize parse env o dir incl.path n incl.ctx (lexWith (extLexersOf o.lexers) d.runes) [] _ = r at i1 i3 ⊢
        generalize parse env { o with directiveSources := new } dir incl.path n incl.ctx (lexWith (extLexersOf o.lexers) d.runes) [] _ = r' at i1 i3 ⊢
        obtain ⟨r, u, p⟩ := r
        obtain ⟨r', u', p'⟩ := r'
        simp only at i1 i3
        cases i1 with
        | @ok b b' hb =>
          simp only
          refine ih i3 (List.rel_append h2 (.cons ?_ .nil))
          obtain ⟨ce', pe', k1, k2, rfl⟩ := i3
          exact ⟨rfl, rfl, k1, hb⟩
        | @err e e' k =>
          simp only
          by_cases hs : o.stopParsingOnError = true
          · rw [if_pos hs, if_pos hs]
            exact ⟨.err k, i3⟩
          · rw [if_neg hs, if_neg hs]
            have i4 : PSOt (handleError o incl.path p e) (handleError { o with directiveSources := new } incl.path p' e') := handleError_ot o incl.path i3 k
            refine ih i4 (List.rel_append h2 (.cons ?_ .nil))
            obtain ⟨ce', pe', k1, k2, k3⟩ := i4
            rw [k3]
            exact ⟨rfl, rfl, k1, rfl⟩
        | panic => exact ⟨.panic, i3⟩
        | fuel => exact ⟨.fuel, i3⟩

end

/-! ## Combining -/

section
variable {cs cs' : List Config}

theorem expandIncludes_ot (hcs : List.Forall₂ OtherTextConfig cs cs') (inner : Str → List Directive → Res (List Directive)) (f : Str) (d : Directive) (is : List Int) :
    expandIncludes cs' inner f d is = expandIncludes cs inner f d is := by
  induction is with
  | nil => rfl
  | cons i is ih =>
    unfold expandIncludes
    rw [← hcs.length_eq, ih]
    split
    · rfl
    · split
      · rfl
      · have := List.forall₂_iff_get.mp hcs
        cases hc : cs[i.toNat]? with
        | none =>
          have : cs'[i.toNat]? = none := by rw [List.getElem?_eq_none_iff, ← hcs.length_eq]; exact List.getElem?_eq_none_iff.mp hc
          rw [this]
        | some c =>
          obtain ⟨hl, hc⟩ := List.getElem?_eq_some_iff.mp hc
          have hl' : i.toNat < cs'.length := by rw [← hcs.length_eq]; exact hl
          have hrel := this.2 i.toNat hl hl'
          rw [List.getElem?_eq_getElem hl']
          simp only [List.get_eq_getElem] at hrel
          rw [hc] at hrel
          simp only
          rw [hrel.file, hrel.parsed]

theorem expandList_ot (hcs : List.Forall₂ OtherTextConfig cs cs') (inner : Str → List Directive → Res (List Directive)) (f : Str) (ds : List Directive) :
    expandList cs' inner f ds = expandList cs inner f ds := by
  refine listInd (P := fun ds => expandList cs' inner f ds = expandList cs inner f ds) ?_ ?_ ds
  · rfl
  · intro d ds ihb ih
    have ho : expandOpt cs' inner f d.block = expandOpt cs inner f d.block := by
      cases hb : d.block with
      | none => rfl
      | some b => rw [expandOpt, expandOpt, ihb b hb]
    rw [expandList_cons, expandList_cons, ih, expandDir_eq, expandDir_eq, ho]
    simp only [expandIncludes_ot hcs]

theorem performIncludes_ot (hcs : List.Forall₂ OtherTextConfig cs cs') (fuel : Nat) : performIncludes cs' fuel = performIncludes cs fuel := by
  induction fuel with
  | zero => rfl
  | succ fuel ih =>
    funext f ds
    rw [performIncludes, performIncludes, ih, expandList_ot hcs]
end

theorem combined_ot {p p' : Payload} (h : OtherTextPayload p p') (fuel : Nat) : OtherTextRes OtherTextPayload (combined fuel p) (combined fuel p') := by
  have hst : p'.config.any (fun c => c.status == c!"failed") = p.config.any (fun c => c.status == c!"failed") := by
    have := h.config
    generalize p.config = a at this ⊢
    generalize p'.config = b at this ⊢
    induction this with
    | nil => rfl
    | cons h _ ih => rw [List.any_cons, List.any_cons, ih, h.status]
  have herr : List.Forall₂ OCErr (p.config.flatMap (·.errors)) (p'.config.flatMap (·.errors)) := by
    have := h.config
    generalize p.config = a at this ⊢
    generalize p'.config = b at this ⊢
    induction this with
    | nil => exact .nil
    | cons h _ ih => rw [List.flatMap_cons, List.flatMap_cons]; exact List.rel_append h.errors ih
  have hc := h.config
  unfold combined
  rw [hst]
  generalize p.config.flatMap (·.errors) = ea at herr ⊢
  generalize p'.config.flatMap (·.errors) = eb at herr ⊢
  generalize p.config.any (fun c => c.status == c!"failed") = bad
  generalize hA : p.config = a at hc
  generalize hB : p'.config = b at hc
  cases hc with
  | nil => exact .ok h
  | @cons c0 c0' r r' h0 hr =>
    simp only
    rw [h0.file, h0.parsed, performIncludes_ot (.cons h0 hr)]
    cases performIncludes (c0 :: r) fuel c0.file c0.parsed with
    | ok ds => exact .ok ⟨by simp only [h.status], h.errors, .cons ⟨rfl, rfl, herr, rfl⟩ .nil⟩
    | err e => exact .err .same
    | panic => exact .panic
    | fuel => exact .fuel

theorem Parse_ot {o : ParseOptions} {new : List MatchFunc}
    (hA : ∀ file stmt term ctx, AnRel o.stopParsingOnError (analyze file stmt term ctx o) (analyze file stmt term ctx { o with directiveSources := new }))
    (env : Env) (fuel : Nat) (filename : Str) : OtherTextRes OtherTextPayload (Parse env fuel filename o) (Parse env fuel filename { o with directiveSources := new }) := by
  unfold Parse
  obtain ⟨k1, k2⟩ := parseFiles_ot hA env (env.dir filename) fuel (ps := initPS filename) (ps' := initPS filename) ⟨[], [], .nil, .nil, rfl⟩ .nil
  generalize parseFiles env o (env.dir filename) fuel (initPS filename) [] = r at k1 k2 ⊢
  generalize parseFiles env { o with directiveSources := new } (env.dir filename) fuel (initPS filename) [] = r' at k1 k2 ⊢
  obtain ⟨r, p⟩ := r
  obtain ⟨r', p'⟩ := r'
  simp only at k1 k2
  obtain ⟨ce, pe, c1, c2, rfl⟩ := k2
  cases k1 with
  | @ok a b hab =>
    simp only
    have hc : isAcyclic env { p with cfgErrors := ce, payErrors := pe } = isAcyclic env p := rfl
    rw [hc, ← hab.length_eq]
    split
    · exact .err .same
    · have hp : OtherTextPayload ⟨p.payStatus, p.payErrors, a⟩ ⟨p.payStatus, pe, b⟩ := ⟨rfl, c2, hab⟩
      split
      · exact combined_ot hp _
      · exact .ok hp
  | err k => exact .err k
  | panic => exact .panic
  | fuel => exact .fuel

end Verif
