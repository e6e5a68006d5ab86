import Verif.Spec.Alone
import Verif.Proofs.Combine
import Verif.Proofs.ParseTop
import Verif.Props.Include
import Verif.Props.EnvProps
/-!
# Two runs over a file, one of which does not follow includes
-/
namespace Verif
open Spec

theorem unlinked_eq (d : Directive) : unlinked d = { d with includes := none, block := d.block.map unlinkedList } := by
  obtain ⟨n, l, a, f, i, b, c, m⟩ := d
  cases b <;> rfl

theorem unlinkedList_append (a b : List Directive) : unlinkedList (a ++ b) = unlinkedList a ++ unlinkedList b := by
  induction a with
  | nil => rfl
  | cons d ds ih => rw [List.cons_append, unlinkedList, unlinkedList, ih]; rfl

theorem unlinkedList_leaf {d : Directive} (hi : d.includes = none) (hb : d.block = none) : unlinkedList [d] = [d] := by
  obtain ⟨n, l, a, f, i, b, c, m⟩ := d
  simp only at hi hb
  subst hi hb
  rfl

theorem unlinkedList_linked {d : Directive} {is : Option (List Int)} (hi : d.includes = none) (hb : d.block = none) : unlinkedList [{ d with includes := is }] = [d] := by
  obtain ⟨n, l, a, f, i, b, c, m⟩ := d
  simp only at hi hb
  subst hi hb
  rfl

theorem unlinkedList_comments (l : Int) (f : Str) (cs : List Str) : unlinkedList (commentDirectives l f cs) = commentDirectives l f cs := by
  unfold commentDirectives
  induction cs with
  | nil => rfl
  | cons c cs ih => rw [List.map_cons, unlinkedList, ih]; rfl

theorem Spec.Without.append {α : Type} {P : α → Prop} {a b c d : List α} (h1 : Without P a b) (h2 : Without P c d) : Without P (a ++ c) (b ++ d) := by
  induction h1 with
  | nil => exact h2
  | keep _ ih => exact .keep ih
  | drop hp _ ih => exact .drop hp ih

theorem Spec.Without.refl {α : Type} {P : α → Prop} (a : List α) : Without P a a := by
  induction a with
  | nil => exact .nil
  | cons x l ih => exact .keep ih

/-- The states of the two runs: the first follows includes. -/
structure PSS (env : Env) (filename : Str) (a b : PS) : Prop where
  errs : Without (fun e => NotOpened env e.error) a.cfgErrors b.cfgErrors
  none : b.includes = []
  edges : b.includeEdges = []
  deg : b.includeInDegree = [(filename, 0)]
  pay : b.payErrors.map (fun e => (e.file, e.line, e.error)) = b.cfgErrors.map (fun e => (filename, e.line, e.error))
  status : b.cfgStatus = (if b.cfgErrors = [] then c!"ok" else c!"failed") ∧ b.payStatus = b.cfgStatus

section
variable {env : Env} {o : ParseOptions} {filename configDir : Str} {a b : PS}

theorem PSS.handleError (h : PSS env filename a b) (o o' : ParseOptions) (e : GoErr) : PSS env filename (handleError o filename a e) (handleError o' filename b e) := by
  refine ⟨h.errs.append (.refl _), h.none, h.edges, h.deg, ?_, ?_⟩
  · simp [Verif.handleError, h.pay]
  · simp [Verif.handleError]

theorem PSS.handleBad (h : PSS env filename a b) (o : ParseOptions) {e : GoErr} (he : NotOpened env e) : PSS env filename (Verif.handleError o filename a e) b := by
  refine ⟨?_, h.none, h.edges, h.deg, h.pay, h.status⟩
  have := h.errs.append (c := [⟨e.line?, e⟩]) (d := []) (.drop he .nil)
  rwa [List.append_nil] at this

theorem addInclude_alone (file : Str) (ctx : Ctx) (stmt : Directive) (ps : PS) (fname : Str) :
    (∃ is, (addInclude file ctx stmt ps fname).1 = { stmt with includes := is }) ∧
      (addInclude file ctx stmt ps fname).2.cfgErrors = ps.cfgErrors := by
  unfold addInclude
  simp only
  cases ps.included.lookup fname <;> exact ⟨⟨_, rfl⟩, rfl⟩

theorem addIncludes_alone (file : Str) (ctx : Ctx) (names : List Str) : ∀ (stmt : Directive) (ps : PS),
    (∃ is, (addIncludes file ctx stmt ps names).1 = { stmt with includes := is }) ∧
      (addIncludes file ctx stmt ps names).2.cfgErrors = ps.cfgErrors := by
  induction names with
  | nil => intro stmt ps; exact ⟨⟨stmt.includes, by cases stmt; rfl⟩, rfl⟩
  | cons n ns ih =>
    intro stmt ps
    obtain ⟨⟨is, h1⟩, h2⟩ := addInclude_alone file ctx stmt ps n
    obtain ⟨⟨js, k1⟩, k2⟩ := ih (addInclude file ctx stmt ps n).1 (addInclude file ctx stmt ps n).2
    rw [addIncludes]
    exact ⟨⟨js, by rw [k1, h1]⟩, k2.trans h2⟩

theorem PSS.names (h : PSS env filename a b) {a' : PS} (h1 : a'.cfgErrors = a.cfgErrors) : PSS env filename a' b :=
  ⟨by rw [h1]; exact h.errs, h.none, h.edges, h.deg, h.pay, h.status⟩

/-- What an include directive does in the two runs. -/
theorem doInclude_alone (ctx : Ctx) {stmt : Directive} (hst : stmt.block = none) (h : PSS env filename a b) :
    (∃ is a', doInclude env o configDir filename ctx stmt a = (.ok { stmt with includes := is }, a') ∧ PSS env filename a' b) ∨
    (∃ e a', doInclude env o configDir filename ctx stmt a = (.err e, a') ∧ IncludeFault env e) := by
  have hr := doInclude_inclR env o configDir filename ctx stmt a
  generalize doInclude env o configDir filename ctx stmt a = r at hr ⊢
  have heta : ∀ d : Directive, d = ⟨d.directive, d.line, d.args, d.file, d.includes, d.block, d.comment, d.isMapBlockParameter⟩ := fun d => by cases d; rfl
  have hname : ∀ {x}, (x && stmt.directive == c!"include") = true → stmt.directive = c!"include" := by
    intro x hx
    rw [Bool.and_eq_true] at hx
    simpa using hx.2
  have hstr : ∀ {x}, (x && stmt.directive == c!"include") = true → ∃ rest, stmt.string = c!"include " ++ rest := by
    intro x hx
    refine ⟨joinStr c!" " stmt.args, ?_⟩
    unfold Directive.string
    rw [hst, hname hx]
    simp
  cases hr with
  | other => exact .inl ⟨stmt.includes, a, by cases stmt; rfl, h⟩
  | noArgs h1 => exact .inr ⟨_, _, rfl, .noArgs (rest := filename ++ c!":" ++ decimal stmt.line) (by rw [hname h1]; simp)⟩
  | globErr x as e h1 h2 h3 h4 => exact .inr ⟨_, _, rfl, .glob h4⟩
  | globOk x as names =>
    obtain ⟨⟨is, k1⟩, k2⟩ := addIncludes_alone filename ctx (sortStrings names) stmt { a with globs := a.globs + 1 }
    exact .inl ⟨is, _, by rw [k1], h.names k2⟩
  | openBad x as e h1 h2 h3 h4 =>
    obtain ⟨rest, hs⟩ := hstr h1
    refine .inl ⟨stmt.includes, _, congrArg (fun d => (Res.ok d, _)) (heta stmt), ?_⟩
    exact PSS.handleBad (h.names (a' := { a with opens := a.opens + 1 }) rfl) o ⟨_, _, e, _, rest, h4, rfl, rfl, hs⟩
  | openFail x as e h1 h2 h3 h4 =>
    obtain ⟨rest, hs⟩ := hstr h1
    exact .inr ⟨_, _, rfl, .opening ⟨_, _, e, _, rest, h4, rfl, rfl, hs⟩⟩
  | openOk x as data =>
    obtain ⟨⟨is, k1⟩, k2⟩ := addIncludes_alone filename ctx [resolve env configDir x] stmt { a with opens := a.opens + 1 }
    exact .inl ⟨is, _, by rw [k1], h.names k2⟩

/-- Contexts that differ at most in their arrays. -/
def CtxSame (c c' : Ctx) : Prop := c'.vals = c.vals ∧ c'.cap = c.cap

theorem enterBlockCtx_alone {ctx ctx' : Ctx} (hc : CtxSame ctx ctx') {stmt stmt' : Directive} (hn : stmt'.directive = stmt.directive) (h : PSS env filename a b) :
    CtxSame (enterBlockCtx stmt ctx a).1 (enterBlockCtx stmt' ctx' b).1 ∧ PSS env filename (enterBlockCtx stmt ctx a).2 (enterBlockCtx stmt' ctx' b).2 := by
  unfold enterBlockCtx
  rw [hn, hc.1, hc.2]
  split
  · exact ⟨⟨rfl, rfl⟩, h.errs, h.none, h.edges, h.deg, h.pay, h.status⟩
  · split
    · exact ⟨⟨rfl, rfl⟩, h.errs, by simp [h.none], h.edges, h.deg, h.pay, h.status⟩
    · exact ⟨⟨rfl, rfl⟩, h.errs, h.none, h.edges, h.deg, h.pay, h.status⟩

/-- The rounds of the two runs. -/
inductive StepAlone (env : Env) (filename : Str) : Step → Step → Prop
  | stop {toks a b} : PSS env filename a b → StepAlone env filename (.stop toks a) (.stop toks b)
  | fail {e toks a b} : PSS env filename a b → StepAlone env filename (.fail e toks a) (.fail e toks b)
  | next {new toks a b} : PSS env filename a b → StepAlone env filename (.next new toks a) (.next (unlinkedList new) toks b)
  | block {stmt is comments toks a b} : stmt.includes = none → PSS env filename a b →
      StepAlone env filename (.block { stmt with includes := is } comments toks a) (.block stmt comments toks b)
  | fault {e toks a s} : IncludeFault env e → StepAlone env filename (.fail (some e) toks a) s

theorem step_alone {configDir' : Str} {ctx ctx' : Ctx} (hc : CtxSame ctx ctx') (t : Tok) (toks : List Tok) (h : PSS env filename a b) :
    StepAlone env filename (step env o configDir filename ctx t toks a) (step env { o with singleFile := true } configDir' filename ctx' t toks b) := by
  unfold step
  rw [hc.1]
  cases t.error with
  | some e => exact .fail h
  | none =>
    simp only
    split
    · exact .stop h
    split
    · have : commentStmt { o with singleFile := true } filename t = commentStmt o filename t := rfl
      rw [this]
      by_cases hp : o.parseComments = true
      · simp only [if_pos hp]; exact .next (new := [commentStmt o filename t]) h
      · simp only [if_neg hp]; exact .next (new := []) h
    cases readArgs o.parseComments [] [] toks with
    | none => exact .fail h
    | some r =>
    obtain ⟨args, comments, term, rest⟩ := r
    simp only
    have hb : baseStmt { o with singleFile := true } filename t args = baseStmt o filename t args := rfl
    rw [hb]
    have hi : (baseStmt o filename t args).includes = none := rfl
    have hbl : (baseStmt o filename t args).block = none := rfl
    generalize baseStmt o filename t args = stmt at hi hbl
    unfold stepStmt
    rw [hc.1]
    cases mapCtx ctx.vals with
    | some m =>
      simp only
      cases analyzeMapBody filename stmt term.value m with
      | some err =>
        simp only
        split
        · exact .fail h
        · exact .next (new := []) (h.handleError o { o with singleFile := true } (.parse err))
      | none =>
        have e : unlinkedList [{ stmt with isMapBlockParameter := true }] = [{ stmt with isMapBlockParameter := true }] := unlinkedList_leaf hi hbl
        have := StepAlone.next (new := [{ stmt with isMapBlockParameter := true }]) (toks := rest) h
        rw [e] at this
        exact this
    | none =>
      simp only
      split
      · exact .next (new := []) h
      have ha : analyze filename stmt term.value ctx.vals { o with singleFile := true } = analyze filename stmt term.value ctx.vals o := rfl
      rw [ha]
      cases analyze filename stmt term.value ctx.vals o with
      | some err =>
        simp only
        have hh := h.handleError o { o with singleFile := true } (.parse err)
        split
        · split
          · split
            · exact .next (new := []) hh
            · exact .stop hh
          · exact .next (new := []) hh
        · exact .fail h
      | none =>
        simp only
        cases hp : prepIf stmt with
        | none => exact .fail h
        | some s1 =>
          simp only
          have hs1 := prepIf_some hp
          have hi1 : s1.includes = none := by rw [hs1]; exact hi
          have hb1 : s1.block = none := by rw [hs1]; exact hbl
          have hd : doInclude env { o with singleFile := true } configDir' filename ctx' s1 b = (.ok s1, b) := doInclude_single rfl ..
          rw [hd]
          rcases doInclude_alone (o := o) (configDir := configDir) ctx hb1 h with ⟨is, a', e1, h1⟩ | ⟨e, a', e1, h1⟩
          · rw [e1]
            simp only
            split
            · exact .block hi1 h1
            · have := StepAlone.next (new := [{ s1 with includes := is }] ++ commentDirectives s1.line (if o.combineConfigs then filename else []) comments) (toks := rest) h1
              rw [unlinkedList_append, unlinkedList_comments, unlinkedList_linked hi1 hb1] at this
              exact this
          · rw [e1]
            exact .fault h1

end

section
variable {env : Env} {o : ParseOptions} {filename configDir configDir' : Str}

theorem RunOk.alone {ctx : Ctx} {toks : List Tok} {a : PS} {ds : List Directive} {toks' : List Tok} {a' : PS}
    (hr : RunOk env o configDir filename ctx toks a ds toks' a') : ∀ {b : PS} {ctx' : Ctx}, CtxSame ctx ctx' → PSS env filename a b →
    ∃ b', RunOk env { o with singleFile := true } configDir' filename ctx' toks b (unlinkedList ds) toks' b' ∧ PSS env filename a' b' := by
  induction hr with
  | eof ctx ps => intro b ctx0 hc h; exact ⟨b, .eof _ _, h⟩
  | stop ctx t toks ps toks' ps' hs =>
    intro b ctx0 hc h
    have k := step_alone (o := o) (configDir := configDir) (configDir' := configDir') hc t toks h
    rw [hs] at k
    generalize hs' : step env { o with singleFile := true } configDir' filename ctx0 t toks b = s' at k
    cases k with
    | stop k => exact ⟨_, .stop _ _ _ _ _ _ hs', k⟩
  | next ctx t toks ps new toks1 ps1 ds toks' ps' hs _ ih =>
    intro b ctx0 hc h
    have k := step_alone (o := o) (configDir := configDir) (configDir' := configDir') hc t toks h
    rw [hs] at k
    generalize hs' : step env { o with singleFile := true } configDir' filename ctx0 t toks b = s' at k
    cases k with
    | next k =>
      obtain ⟨b', h1, h2⟩ := ih hc k
      rw [unlinkedList_append]
      exact ⟨b', .next _ _ _ _ _ _ _ _ _ _ hs' h1, h2⟩
  | block ctx t toks ps stmt comments toks1 ps1 bl toks2 ps2 ds toks' ps' hs _ _ ih1 ih2 =>
    intro b ctx0 hc h
    have k := step_alone (o := o) (configDir := configDir) (configDir' := configDir') hc t toks h
    rw [hs] at k
    generalize hs' : step env { o with singleFile := true } configDir' filename ctx0 t toks b = s' at k
    cases k with
    | @block stmt is _ _ _ b1 hi k =>
      obtain ⟨e1, e2⟩ := enterBlockCtx_alone hc (stmt := { stmt with includes := is }) (stmt' := stmt) rfl k
      obtain ⟨b2, h1, h2⟩ := ih1 e1 e2
      obtain ⟨b', h3, h4⟩ := ih2 hc h2
      refine ⟨b', ?_, h4⟩
      have := RunOk.block _ _ _ _ _ _ _ _ _ _ _ _ _ _ hs' h1 h3
      rw [unlinkedList, unlinkedList_append, unlinkedList_comments, unlinked_eq]
      obtain ⟨⟩ := stmt
      simp only at hi
      subst hi
      exact this

theorem RunFail.alone {ctx : Ctx} {toks : List Tok} {a : PS} {e : Option GoErr} {toks' : List Tok} {a' : PS}
    (hr : RunFail env o configDir filename ctx toks a e toks' a') : ∀ {b : PS} {ctx' : Ctx}, CtxSame ctx ctx' → PSS env filename a b →
    (∃ x, e = some x ∧ IncludeFault env x) ∨
    ∃ b', RunFail env { o with singleFile := true } configDir' filename ctx' toks b e toks' b' ∧ PSS env filename a' b' := by
  induction hr with
  | fail ctx t toks ps e toks' ps' hs =>
    intro b ctx0 hc h
    have k := step_alone (o := o) (configDir := configDir) (configDir' := configDir') hc t toks h
    rw [hs] at k
    generalize hs' : step env { o with singleFile := true } configDir' filename ctx0 t toks b = s' at k
    cases k with
    | fail k => exact .inr ⟨_, .fail _ _ _ _ _ _ _ hs', k⟩
    | fault k => exact .inl ⟨_, rfl, k⟩
  | next ctx t toks ps new toks1 ps1 e toks' ps' hs _ ih =>
    intro b ctx0 hc h
    have k := step_alone (o := o) (configDir := configDir) (configDir' := configDir') hc t toks h
    rw [hs] at k
    generalize hs' : step env { o with singleFile := true } configDir' filename ctx0 t toks b = s' at k
    cases k with
    | next k =>
      rcases ih hc k with h1 | ⟨b', h1, h2⟩
      · exact .inl h1
      · exact .inr ⟨b', .next _ _ _ _ _ _ _ _ _ _ hs' h1, h2⟩
  | inside ctx t toks ps stmt comments toks1 ps1 e toks' ps' hs _ ih =>
    intro b ctx0 hc h
    have k := step_alone (o := o) (configDir := configDir) (configDir' := configDir') hc t toks h
    rw [hs] at k
    generalize hs' : step env { o with singleFile := true } configDir' filename ctx0 t toks b = s' at k
    cases k with
    | @block stmt is _ _ _ b1 hi k =>
      obtain ⟨e1, e2⟩ := enterBlockCtx_alone hc (stmt := { stmt with includes := is }) (stmt' := stmt) rfl k
      rcases ih e1 e2 with h1 | ⟨b', h1, h2⟩
      · exact .inl h1
      · exact .inr ⟨b', .inside _ _ _ _ _ _ _ _ _ _ _ hs' h1, h2⟩
  | after ctx t toks ps stmt comments toks1 ps1 bl toks2 ps2 e toks' ps' hs h1 _ ih =>
    intro b ctx0 hc h
    have k := step_alone (o := o) (configDir := configDir) (configDir' := configDir') hc t toks h
    rw [hs] at k
    generalize hs' : step env { o with singleFile := true } configDir' filename ctx0 t toks b = s' at k
    cases k with
    | @block stmt is _ _ _ b1 hi k =>
      obtain ⟨e1, e2⟩ := enterBlockCtx_alone hc (stmt := { stmt with includes := is }) (stmt' := stmt) rfl k
      obtain ⟨b2, h2, h3⟩ := h1.alone e1 e2
      rcases ih hc h3 with h4 | ⟨b', h4, h5⟩
      · exact .inl h4
      · exact .inr ⟨b', .after _ _ _ _ _ _ _ _ _ _ _ _ _ _ hs' h2 h4, h5⟩

end

end Verif
