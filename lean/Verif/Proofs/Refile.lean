import Verif.Props.Restable
import Verif.Spec.UpToLines
/-!
# Parsing the built files of a payload

`Replay` says what the directives of a tree do to the state of the parser: include directives add to the worklist, blocks change contexts.  A run without
errors does what its tree does (`RunOk.replay`); the run over the tokens of the built text does the same (`run_replay`).
-/
namespace Verif
open Spec

/-- A statement without includes and block. -/
def plainStmt (o : ParseOptions) (file name : Str) (line : Int) (args : List Str) : Directive :=
  ⟨name, line, args, fileName o file, none, none, none, false⟩

/-- What the directives of a tree do to the state, in the order of the tree. -/
inductive Replay (env : Env) (o : ParseOptions) (configDir file : Str) : Ctx → PS → List Directive → PS → Prop
  | nil (ctx ps) : Replay env o configDir file ctx ps [] ps
  | comment (ctx ps line text ds ps') : o.parseComments = true → Replay env o configDir file ctx ps ds ps' →
      Replay env o configDir file ctx ps (⟨c!"#", line, [], fileName o file, none, none, some text, false⟩ :: ds) ps'
  | param (ctx ps name line args m ds ps') : mapCtx ctx.vals = some m → Replay env o configDir file ctx ps ds ps' →
      Replay env o configDir file ctx ps (⟨name, line, args, fileName o file, none, none, none, true⟩ :: ds) ps'
  | leaf (ctx ps name line args d ps1 ds ps') : mapCtx ctx.vals = none →
      doInclude env o configDir file ctx (plainStmt o file name line args) ps = (.ok d, ps1) → Replay env o configDir file ctx ps1 ds ps' →
      Replay env o configDir file ctx ps (d :: ds) ps'
  | node (ctx ps name line args d ps1 b ps2 ds ps') : mapCtx ctx.vals = none →
      doInclude env o configDir file ctx (plainStmt o file name line args) ps = (.ok d, ps1) →
      Replay env o configDir file (enterBlockCtx d ctx ps1).1 (enterBlockCtx d ctx ps1).2 b ps2 → Replay env o configDir file ctx ps2 ds ps' →
      Replay env o configDir file ctx ps ({ d with block := some b } :: ds) ps'

theorem Replay.comments {env : Env} {o : ParseOptions} {configDir file : Str} {ctx : Ctx} {ps ps' : PS} {ds : List Directive}
    (h : Replay env o configDir file ctx ps ds ps') (line : Int) (cs : List Str) (hp : cs ≠ [] → o.parseComments = true) :
    Replay env o configDir file ctx ps (commentDirectives line (if o.combineConfigs then file else []) cs ++ ds) ps' := by
  unfold commentDirectives
  induction cs with
  | nil => exact h
  | cons c cs ih => exact .comment _ _ _ _ _ _ (hp (by simp)) (ih (fun _ => hp (by simp)))

theorem Replay.rel {env : Env} {o : ParseOptions} {configDir file : Str} {R : PS → PS → Prop} (hR : StateRel o file R) {ctx : Ctx} {ps ps' : PS}
    {ds : List Directive} (h : Replay env o configDir file ctx ps ds ps') : R ps ps' := by
  have hd : ∀ {ctx stmt ps r ps'}, doInclude env o configDir file ctx stmt ps = (r, ps') → R ps ps' := by
    intro ctx stmt ps r ps' hd
    have := hR.doInclude env configDir ctx stmt ps
    rw [hd] at this; exact this
  induction h with
  | nil => exact hR.refl _
  | comment _ _ _ _ _ _ _ _ ih => exact ih
  | param _ _ _ _ _ _ _ _ _ _ ih => exact ih
  | leaf _ _ _ _ _ _ _ _ _ _ h _ ih => exact hR.trans (hd h) ih
  | node _ _ _ _ _ _ _ _ _ _ _ _ h _ _ ih1 ih2 => exact hR.trans (hd h) (hR.trans (hR.enter _ _ _) (hR.trans ih1 ih2))

theorem prefix_antisymm {α : Type} {a b : List α} (h1 : a <+: b) (h2 : b <+: a) : a = b := by
  exact h1.eq_of_length (Nat.le_antisymm h1.length_le h2.length_le)

/-- A run without errors does what its tree does. -/
theorem RunOk.replay {env : Env} {o : ParseOptions} {configDir file : Str} {ctx : Ctx} {toks : List Tok} {ps : PS} {ds : List Directive} {toks' : List Tok} {ps' : PS}
    (h : RunOk env o configDir file ctx toks ps ds toks' ps') : ps'.payErrors = ps.payErrors → Replay env o configDir file ctx ps ds ps' := by
  have hne : ∀ (ps : PS) (e : GoErr) (q : PS), (handleError o file ps e).payErrors <+: q.payErrors → q.payErrors ≠ ps.payErrors := by
    intro ps e q hp he
    have := hp.length_le
    rw [he] at this
    simp [handleError] at this
    omega
  induction h with
  | eof => intro _; exact .nil _ _
  | stop ctx t toks ps toks' ps' hs =>
    intro he
    have hc := step_cases env o configDir file ctx t toks ps
    rw [hs] at hc
    cases hc with
    | close => exact .nil _ _
    | rejectStop _ _ _ _ _ _ _ _ _ _ _ _ => exact absurd he (hne _ _ _ (List.prefix_refl _))
  | next ctx t toks ps new toks1 ps1 ds toks' ps' hs hr ih =>
    intro he
    have hg := (payErrors_rel o file).runOk hr
    have hg0 := (payErrors_rel o file).step env configDir ctx t toks ps
    rw [hs] at hg0
    have he1 : ps1.payErrors = ps.payErrors := prefix_antisymm (by rw [← he]; exact hg) hg0
    have ih := ih (he.trans he1.symm)
    have hc := step_cases env o configDir file ctx t toks ps
    rw [hs] at hc
    generalize hnew : new = new' at hc
    generalize hps : ps1 = ps1' at hc
    cases hc with
    | comment h1 h2 h3 =>
      subst hps
      cases hp : o.parseComments with
      | false => rw [hp] at hnew; subst hnew; exact ih
      | true => rw [hp] at hnew; subst hnew; exact .comment _ _ _ _ _ _ hp ih
    | mapBad _ _ _ _ _ _ _ _ _ _ => subst hps; exact absurd he1 (hne _ _ _ (List.prefix_refl _))
    | mapOk args _ _ _ m R h1 h2 => subst hps hnew; exact .param _ _ _ _ _ _ _ _ h1 ih
    | ignored => subst hps hnew; exact ih
    | rejectSkip => subst hps; exact absurd he1 (hne _ _ _ (List.prefix_refl _))
    | reject => subst hps; exact absurd he1 (hne _ _ _ (List.prefix_refl _))
    | simple args comments term rest stmt stmt' ps2 R h1 h2 h3 h4 h5 h6 =>
      subst hps hnew
      have e1 := prepIf_some h4
      rw [List.append_assoc]
      refine .leaf ctx ps t.value t.line stmt.args stmt' ps1 _ _ h1 ?_ (ih.comments _ _ ?_)
      · rw [e1] at h5; exact h5
      · intro hne
        have := readArgs_comments R.read
        simp only at this
        exact this (fun h => absurd rfl h) hne
  | block ctx t toks ps stmt comments toks1 ps1 b toks2 ps2 ds toks' ps' hs hr1 hr2 ih1 ih2 =>
    intro he
    have hg2 := (payErrors_rel o file).runOk hr2
    have hg1 := (payErrors_rel o file).runOk hr1
    have hge := (payErrors_rel o file).enter stmt ctx ps1
    have hg0 := (payErrors_rel o file).step env configDir ctx t toks ps
    rw [hs] at hg0
    simp only [Step.ps] at hg0
    have e2 : ps2.payErrors = ps'.payErrors := prefix_antisymm hg2 (by rw [he]; exact hg0.trans (hge.trans hg1))
    have ee : (enterBlockCtx stmt ctx ps1).2.payErrors = ps'.payErrors := prefix_antisymm (hg1.trans hg2) (by rw [he]; exact hg0.trans hge)
    have ih1 := ih1 (e2.trans ee.symm)
    have ih2 := ih2 e2.symm
    have hc := step_cases env o configDir file ctx t toks ps
    rw [hs] at hc
    cases hc with
    | block args comments term rest stmt0 stmt' ps2 R h1 h2 h3 h4 h5 h6 =>
      have e1 := prepIf_some h4
      refine .node ctx ps t.value t.line stmt0.args stmt ps1 b _ _ _ h1 ?_ ih1 (ih2.comments _ _ ?_)
      · rw [e1] at h5; exact h5
      · intro hne
        have := readArgs_comments R.read
        simp only at this
        exact this (fun h => absurd rfl h) hne

/-! ## Include directives on other lines -/

theorem addIncludes_line (file : Str) (ctx : Ctx) (line : Int) (names : List Str) : ∀ (stmt : Directive) (ps : PS),
    addIncludes file ctx { stmt with line := line } ps names =
      ({ (addIncludes file ctx stmt ps names).1 with line := line }, (addIncludes file ctx stmt ps names).2) := by
  induction names with
  | nil => intro stmt ps; rfl
  | cons f fs ih =>
    intro stmt ps
    show addIncludes file ctx (addInclude file ctx { stmt with line := line } ps f).1 (addInclude file ctx { stmt with line := line } ps f).2 fs = _
    have h1 : (addInclude file ctx { stmt with line := line } ps f).1 = { (addInclude file ctx stmt ps f).1 with line := line } := rfl
    have h2 : (addInclude file ctx { stmt with line := line } ps f).2 = (addInclude file ctx stmt ps f).2 := rfl
    rw [h1, h2, ih]; rfl

/-- Two environments with the same paths and patterns. -/
structure SamePaths (env env' : Env) : Prop where
  isAbs : env'.isAbs = env.isAbs
  join : env'.join = env.join
  dir : env'.dir = env.dir
  glob : env'.glob = env.glob

/-- An include directive that was followed without error does the same on another line, if its file can be opened. -/
theorem doInclude_again {env env' : Env} {o : ParseOptions} {configDir file : Str} {ctx : Ctx} {stmt d : Directive} {ps ps1 : PS} (hs : SamePaths env env')
    (h : doInclude env o configDir file ctx stmt ps = (.ok d, ps1)) (he : ps1.payErrors = ps.payErrors)
    (hopen : ∀ f ∈ ps1.included.map (·.1), ∀ n, ∃ data, env'.openFile n f = .ok data) (line : Int) :
    doInclude env' o configDir file ctx { stmt with line := line } ps = (.ok { d with line := line }, ps1) := by
  have hres : ∀ a, resolve env' configDir a = resolve env configDir a := fun a => by unfold resolve; rw [hs.isAbs, hs.join]
  have hc := doInclude_inclR env o configDir file ctx stmt ps
  rw [h] at hc
  have hc' := doInclude_inclR env' o configDir file ctx { stmt with line := line } ps
  generalize hr : doInclude env' o configDir file ctx { stmt with line := line } ps = r at hc'
  generalize hr0 : ((Res.ok d, ps1) : Res Directive × PS) = r0 at hc
  have key : ∀ names ps0, addIncludes file ctx { stmt with line := line } ps0 names =
      ({ (addIncludes file ctx stmt ps0 names).1 with line := line }, (addIncludes file ctx stmt ps0 names).2) := fun names ps0 => addIncludes_line ..
  have hno : ∀ {b : Bool}, b = false → b = true → False := by rintro _ rfl h; cases h
  cases hc with
  | other h1 =>
    cases hr0
    cases hc' with
    | other _ => rfl
    | noArgs g1 => exact (hno h1 g1).elim
    | globErr _ _ _ g1 => exact (hno h1 g1).elim
    | globOk _ _ _ g1 => exact (hno h1 g1).elim
    | openBad _ _ _ g1 => exact (hno h1 g1).elim
    | openFail _ _ _ g1 => exact (hno h1 g1).elim
    | openOk _ _ _ g1 => exact (hno h1 g1).elim
  | noArgs => cases hr0
  | globErr => cases hr0
  | globOk a as names h1 h2 h3 h4 =>
    have hm : ∀ {a' as'}, stmt.args = a' :: as' → a' = a := by
      intro a' as' g; rw [h2] at g; cases g; rfl
    cases hr0
    cases hc' with
    | other g1 => exact (hno g1 h1).elim
    | noArgs _ g2 => exact absurd (h2.symm.trans g2) (by simp)
    | globErr a' _ e g1 g2 g3 g4 =>
      obtain rfl := hm g2
      rw [hres, hs.glob, h4] at g4; cases g4
    | globOk a' _ names' g1 g2 g3 g4 =>
      obtain rfl := hm g2
      rw [hres, hs.glob, h4] at g4; cases g4
      rw [key]
    | openBad a' _ _ g1 g2 g3 => obtain rfl := hm g2; rw [hres, h3] at g3; cases g3
    | openFail a' _ _ g1 g2 g3 => obtain rfl := hm g2; rw [hres, h3] at g3; cases g3
    | openOk a' _ _ g1 g2 g3 => obtain rfl := hm g2; rw [hres, h3] at g3; cases g3
  | openBad a as e h1 h2 h3 h4 h5 => cases hr0; simp [handleError] at he
  | openFail => cases hr0
  | openOk a as data h1 h2 h3 h4 =>
    have hm : ∀ {a' as'}, stmt.args = a' :: as' → a' = a := by
      intro a' as' g; rw [h2] at g; cases g; rfl
    cases hr0
    have hin : resolve env configDir a ∈ (addIncludes file ctx stmt { ps with opens := ps.opens + 1 } [resolve env configDir a]).2.included.map (·.1) := by
      obtain ⟨i, -, hl⟩ := addInclude_directive file ctx stmt { ps with opens := ps.opens + 1 } (resolve env configDir a)
      by_contra hc
      rw [← assoc_none_iff] at hc
      change (addInclude file ctx stmt { ps with opens := ps.opens + 1 } (resolve env configDir a)).2.included.lookup _ = none at hc
      rw [hl] at hc; cases hc
    obtain ⟨data', hd⟩ := hopen _ hin ps.opens
    cases hc' with
    | other g1 => exact (hno g1 h1).elim
    | noArgs _ g2 => exact absurd (h2.symm.trans g2) (by simp)
    | globErr a' _ e g1 g2 g3 g4 => obtain rfl := hm g2; rw [hres, h3] at g3; cases g3
    | globOk a' _ names' g1 g2 g3 g4 => obtain rfl := hm g2; rw [hres, h3] at g3; cases g3
    | openBad a' _ _ g1 g2 g3 g4 => obtain rfl := hm g2; rw [hres, hd] at g4; cases g4
    | openFail a' _ _ g1 g2 g3 g4 => obtain rfl := hm g2; rw [hres, hd] at g4; cases g4
    | openOk a' _ _ g1 g2 g3 =>
      obtain rfl := hm g2
      rw [hres, key]

/-! ## Accepted trees with includes -/

/-- Trees whose directives the parser accepts in their places (in the context `ctx`); they may have include directives. -/
def Accepts (quoted : Str → Bool) (o : ParseOptions) (ctx : List Str) (ds : List Directive) : Prop :=
  ∀ d c, At d ctx ds c → ¬ IsComment d →
    (∀ m, InMap c m → d.directive ≠ c!"if" ∧ d.block = none ∧ MapArgs m d.directive d.args.length) ∧
    ((∀ m, ¬ InMap c m) → d.directive ∉ o.ignoreDirectives ∧
      analyze d.file ⟨d.directive, d.line, rawArgs quoted d, d.file, none, none, none, false⟩ (termOf d) c o = none)

theorem Accepts.tail {q : Str → Bool} {o : ParseOptions} {ctx : List Str} {d : Directive} {ds : List Directive} (h : Accepts q o ctx (d :: ds)) : Accepts q o ctx ds :=
  fun x c hx => h x c (at_cons hx)

theorem Accepts.block {q : Str → Bool} {o : ParseOptions} {ctx : List Str} {d : Directive} {b ds : List Directive} (h : Accepts q o ctx (d :: ds))
    (hb : d.block = some b) : Accepts q o (enter ctx d.directive) b :=
  fun x c hx => h x c (.deep (List.mem_cons_self ..) hb hx)

/-- A directive that was parsed is accepted again. -/
theorem node_accepts {env : Env} {o : ParseOptions} {configDir file : Str} {inc : List (Str × Int)} {c : List Str} {d : Directive}
    (hn : Node env o configDir file inc c d) (hcm : ¬ IsComment d) (hhead : d.directive = c!"if" → ∃ a as, d.args = a :: as ∧ a ≠ [])
    (hmask : ∀ m, HasMask (sources o) c!"if" m → m.testBit 11 = true ∨ m.testBit 12 = true)
    (hp : d.isMapBlockParameter = true → d.directive ≠ c!"if") :
    (∀ m, InMap c m → d.directive ≠ c!"if" ∧ d.block = none ∧ MapArgs m d.directive d.args.length) ∧
    ((∀ m, ¬ InMap c m) → d.directive ∉ o.ignoreDirectives ∧
      analyze d.file ⟨d.directive, d.line, rawArgs needsQuote d, d.file, none, none, none, false⟩ (termOf d) c o = none) := by
  constructor
  · intro m hm
    clear hhead
    cases hn with
    | comment line text => exact absurd ⟨rfl, by simp⟩ hcm
    | param t args m' h1 h2 h3 =>
      rw [(mapCtx_eq _ _).mpr hm] at h1
      cases h1
      exact ⟨hp rfl, rfl, ((C27_decision _ _ _ _ hm.2).mp h2).2⟩
    | stmt t args term stmt is block h1 =>
      rw [(mapCtx_eq _ _).mpr hm] at h1; cases h1
  · intro hm
    have hmp : d.isMapBlockParameter = false := by
      clear hhead hp
      cases hn with
      | comment line text => rfl
      | param t args m' h1 => exact absurd ((mapCtx_eq _ _).mp h1) (hm m')
      | stmt t args term stmt is block => rfl
    have hig : d.directive ∉ o.ignoreDirectives := by
      clear hhead hp
      cases hn with
      | comment line text => exact absurd ⟨rfl, by simp⟩ hcm
      | param t args m' h1 => cases hmp
      | stmt t args term stmt is block h1 h2 =>
        intro h
        unfold contains at h2
        rw [List.any_eq_false] at h2
        exact h2 _ h (by simp)
    obtain ⟨-, args, term, h1, h2, h3, h4⟩ := node_checked hn hcm hmp
    exact ⟨hig, accepted_again h1 h2 h3 h4 hmask hhead⟩

/-- What was parsed is accepted again. -/
theorem nodes_accepts {env : Env} {o : ParseOptions} {configDir file : Str} {inc : List (Str × Int)} {ctx : List Str} {ds : List Directive}
    (hnodes : ∀ d c, At d ctx ds c → Node env o configDir file inc c d)
    (hhead : ∀ d, Within d ds → d.directive = c!"if" → ∃ a as, d.args = a :: as ∧ a ≠ [])
    (hmask : ∀ m, HasMask (sources o) c!"if" m → m.testBit 11 = true ∨ m.testBit 12 = true)
    (hparam : ∀ d, Within d ds → d.isMapBlockParameter = true → d.directive ≠ c!"if") : Accepts needsQuote o ctx ds :=
  fun d c hd hcm => node_accepts (hnodes d c hd) hcm (hhead d (at_within hd)) hmask (hparam d (at_within hd))

theorem HeadReadable.ifCons {isPrint : Char → Bool} {name : Str} {args : List Str} (h : HeadReadable isPrint name args) (hif : name = c!"if") :
    ∃ a as, args = a :: as ∧ a ≠ [] := by
  cases ha : args with
  | nil => exact absurd ha (h.ifSome hif)
  | cons a as =>
    refine ⟨a, as, rfl, ?_⟩
    rintro rfl
    have := h.ifFirst hif _ _ ha
    revert this; decide

/-- Comments have the text of a comment token and nothing else; other directives have no comment. -/
def ShapeOf (toks : List Tok) (ds : List Directive) : Prop :=
  ∀ d, Within d ds → (IsComment d ∧ d.args = [] ∧ d.block = none ∧ ∃ t ∈ toks, CommentTok t (d.comment.getD [])) ∨
    (¬ IsComment d ∧ d.comment = none)

theorem nodes_shape {env : Env} {o : ParseOptions} {configDir file : Str} {inc : List (Str × Int)} {ctx : List Str} {ds : List Directive}
    (hnodes : ∀ d c, At d ctx ds c → Node env o configDir file inc c d) {toks : List Tok} (hfrom : CommentsFrom toks ds) : ShapeOf toks ds := by
  intro d hd
  obtain ⟨c, hc⟩ := within_at hd ctx
  have hn := hnodes d c hc
  by_cases hcm : IsComment d
  · left
    refine ⟨hcm, ?_⟩
    have hcm2 := hcm.2
    have hf := hfrom d hd
    clear hc hd hfrom
    cases hn with
    | comment line text hp =>
      exact ⟨rfl, rfl, hf text rfl⟩
    | param t args m => exact absurd rfl hcm2
    | stmt t args term stmt is block => exact absurd rfl hcm2
  · right
    refine ⟨hcm, ?_⟩
    clear hc hd
    cases hn with
    | comment line text hp => exact absurd ⟨rfl, by simp⟩ hcm
    | param t args m => rfl
    | stmt t args term stmt is block => rfl

/-- What was parsed is readable if its names and arguments are. -/
theorem ShapeOf.readable {isPrint : Char → Bool} {ds : List Directive} {s : Str} (h : ShapeOf (lex s) ds)
    (hhead : ∀ d, Within d ds → ¬ IsComment d → HeadReadable isPrint d.directive d.args) : Readable isPrint ds := by
  intro d hd
  rcases h d hd with ⟨h1, h2, h3, t, h4, h5⟩ | ⟨h1, h2⟩
  · exact Or.inl ⟨h1, h2, h3, lex_commentText h4 h5⟩
  · exact Or.inr ⟨h1, h2, hhead d hd h1⟩

/-- What one round of the loop does with a statement that is accepted. -/
theorem step_accepts {env : Env} {o : ParseOptions} {configDir file : Str} {ctx : Ctx} {ps : PS} {d : Directive} (hc : ¬ IsComment d)
    {vals : List (Str × Bool)} (hr : HeadVals vals d) {ds : List Directive} (ha : Accepts needsQuote o ctx.vals (d :: ds)) {hs : List Tok}
    (hv : Vals hs vals) (line : Int) (rest : List Tok) :
    ∃ t mid, hs = t :: mid ∧
      (∀ m, mapCtx ctx.vals = some m → d.block = none ∧ step env o configDir file ctx t (mid ++ ⟨termOf d, line, false, none⟩ :: rest) ps =
        .next [⟨d.directive, t.line, d.args, fileName o file, none, none, none, true⟩] rest ps) ∧
      (mapCtx ctx.vals = none → ∀ s ps1, doInclude env o configDir file ctx (plainStmt o file d.directive t.line d.args) ps = (.ok s, ps1) →
        (d.block = none → step env o configDir file ctx t (mid ++ ⟨termOf d, line, false, none⟩ :: rest) ps = .next [s] rest ps1) ∧
        (d.block ≠ none → step env o configDir file ctx t (mid ++ ⟨termOf d, line, false, none⟩ :: rest) ps = .block s [] rest ps1)) := by
  obtain ⟨q, vs, e1, e2, e3, e4⟩ := hr
  rw [e1] at hv e4
  obtain ⟨t, mid, rfl, h1, h2, h3, h4⟩ := vals_toks hv e4
  have hterm : (⟨termOf d, line, false, none⟩ : Tok).isTerm = true := by
    unfold termOf; split <;> rfl
  have hnc : t.is c!"}" = false := by
    rw [is_mark_false]
    intro hm
    have := isTerm_mark.mpr (Or.inr (Or.inl hm))
    rw [(h4 t (by simp)).1] at this; cases this
  have R : Reads o t (mid ++ ⟨termOf d, line, false, none⟩ :: rest) (rawArgs needsQuote d) [] ⟨termOf d, line, false, none⟩ rest := by
    refine ⟨h3, hnc, (h4 t (by simp)).2, ?_⟩
    rw [readArgs_fwd mid (fun x hx => h4 x (by simp [hx])) _ hterm, h2, e2]
    rfl
  obtain ⟨a1, a2⟩ := ha d ctx.vals (.here (by simp)) hc
  refine ⟨t, mid, rfl, ?_, ?_⟩
  · intro m hm
    have him := (mapCtx_eq _ _).mp hm
    obtain ⟨b1, b2, b3⟩ := a1 m him
    have hraw : rawArgs needsQuote d = d.args := by unfold rawArgs; rw [if_neg b1]
    have han : analyzeMapBody file (baseStmt o file t (rawArgs needsQuote d)) (termOf d) m = none := by
      rw [C27_decision _ _ _ _ him.2]
      refine ⟨by unfold termOf; rw [if_pos b2], ?_⟩
      show MapArgs m t.value (rawArgs needsQuote d).length
      rw [h1, hraw]; exact b3
    refine ⟨b2, ?_⟩
    rw [(StepR.mapOk _ _ _ _ _ R hm han).step_eq, hraw, ← h1]
    rfl
  · intro hm s ps1 hinc
    obtain ⟨b1, b3⟩ := a2 (fun m him => by rw [(mapCtx_eq _ _).mpr him] at hm; cases hm)
    have hi : contains o.ignoreDirectives t.value = false := by rw [h1]; exact contains_false b1
    have han : analyze file (baseStmt o file t (rawArgs needsQuote d)) (termOf d) ctx.vals o = none := by
      refine analyze_congr ?_ ?_ b3
      · exact h1.symm
      · rfl
    have hpre : prepIf (baseStmt o file t (rawArgs needsQuote d)) = some (baseStmt o file t d.args) := by
      unfold prepIf
      by_cases hif : d.directive = c!"if"
      · rw [if_pos (by rw [baseStmt_directive, h1, hif]; rfl)]
        exact prepareIfArgs_of (d := baseStmt o file t (rawArgs needsQuote d)) (e3 hif)
      · rw [if_neg (by rw [baseStmt_directive, h1, beq_iff_eq]; exact hif)]
        unfold rawArgs; rw [if_neg hif]
    have hinc : doInclude env o configDir file ctx (baseStmt o file t d.args) ps = (.ok s, ps1) := by
      have : baseStmt o file t d.args = plainStmt o file d.directive t.line d.args := by rw [← h1]; rfl
      rw [this]; exact hinc
    constructor
    · intro hb
      have := (StepR.simple (env := env) (configDir := configDir) (ps := ps) _ _ _ _ _ _ _ R hm hi han hpre hinc (by
        unfold termOf; rw [if_pos hb]; rfl)).step_eq
      rw [this]; rfl
    · intro hb
      exact (StepR.block (env := env) (configDir := configDir) (ps := ps) _ _ _ _ _ _ _ R hm hi han hpre hinc (by
        unfold termOf; rw [if_neg hb]; rfl)).step_eq

theorem doInclude_fields {env : Env} {o : ParseOptions} {configDir file : Str} {ctx : Ctx} {name : Str} {line : Int} {args : List Str} {d : Directive} {ps ps1 : PS}
    (h : doInclude env o configDir file ctx (plainStmt o file name line args) ps = (.ok d, ps1)) :
    d = ⟨name, line, args, fileName o file, d.includes, none, none, false⟩ := by
  obtain ⟨e, -⟩ := doInclude_ok (stmt := plainStmt o file name line args) rfl h
  exact e

/-- The tokens of a tree are parsed as this tree, and do to the state what the tree does. -/
theorem run_replay {hd : Str → List Str → List Item} {env env' : Env} {o : ParseOptions} {configDir file : Str} (hsame : SamePaths env env') {ds : List Directive} {toks : List Tok}
    (h : Toks hd ds toks) : ∀ (ctx : Ctx) (ps ps' : PS) (x x' : List Tok), Replay env o configDir file ctx ps ds ps' → ps'.payErrors = ps.payErrors →
    (∀ f ∈ ps'.included.map (·.1), ∀ n, ∃ data, env'.openFile n f = .ok data) → ReadBy hd ds → Accepts needsQuote o ctx.vals ds →
    (x = [] ∧ x' = [] ∨ ∃ line, x = ⟨c!"}", line, false, none⟩ :: x') →
    ∃ es, RunOk env' o configDir file ctx (toks ++ x) ps es x' ps' ∧ UpToLines ds es := by
  have hmono : ∀ {ctx : Ctx} {ps ps' : PS} {ds : List Directive}, Replay env o configDir file ctx ps ds ps' → ∀ f ∈ ps.included.map (·.1), f ∈ ps'.included.map (·.1) := by
    intro ctx ps ps' ds h f hf
    obtain ⟨more, hm⟩ := h.rel (included_rel o file)
    rw [hm]; simp only [List.map_append, List.mem_append]; exact Or.inl hf
  induction h with
  | nil =>
    intro ctx ps ps' x x' hp he ho hr ha hx
    cases hp
    rcases hx with ⟨rfl, rfl⟩ | ⟨line, rfl⟩
    · exact ⟨[], .eof ctx ps, .nil⟩
    · refine ⟨[], .stop _ _ _ _ _ _ ?_, .nil⟩
      exact (StepR.close rfl rfl).step_eq
  | @comment d ds toks line hc ht ih =>
    intro ctx ps ps' x x' hp he ho hr ha hx
    have hr' := hr d (.here (by simp))
    have hrt := hr.tail
    have hat := ha.tail
    clear hr ha
    cases hp with
    | comment _ _ line' text _ _ hpc hp =>
      obtain ⟨es, h1, h2⟩ := ih ctx ps ps' x x' hp he ho hrt hat hx
      rcases hr' with ⟨-, r1, r2, r3⟩ | ⟨r1, -⟩
      · rw [r3.cunits]
        have hs := (StepR.comment (env := env') (o := o) (configDir := configDir) (file := file) (ctx := ctx) (t := ⟨'#' :: text, line, false, none⟩)
          (toks := toks ++ x) (ps := ps) rfl (by simp [Tok.is]) (by simp [Tok.isCommentTok, hasPrefix, List.isPrefixOf])).step_eq
        rw [hpc, if_pos rfl] at hs
        refine ⟨_, .next _ _ _ _ _ _ _ _ _ _ hs h1, ?_⟩
        exact UpToLines.leaf (d := ⟨c!"#", line', [], fileName o file, none, none, some text, false⟩) (line := line) rfl h2
      · exact absurd hc r1
    | param => exact absurd rfl hc.2
    | leaf _ _ _ _ _ _ _ _ _ _ hi => rw [doInclude_fields hi] at hc; exact absurd rfl hc.2
    | node _ _ _ _ _ _ _ _ _ _ _ _ hi => rw [doInclude_fields hi] at hc; exact absurd rfl hc.2
  | @simple d ds hs toks line hc hv hb ht ih =>
    intro ctx ps ps' x x' hp he ho hr ha hx
    rcases hr d (.here (by simp)) with ⟨r1, -⟩ | ⟨-, r1, r2⟩
    · exact absurd r1 hc
    obtain ⟨t, mid, rfl, s1, s2⟩ := step_accepts (env := env') (configDir := configDir) (file := file) (ps := ps) hc r2 ha hv line (toks ++ x)
    have hrt := hr.tail
    have hat := ha.tail
    unfold termOf at s1 s2
    rw [if_pos hb] at s1 s2
    clear hr ha r2 hv
    cases hp with
    | comment => exact absurd ⟨rfl, by simp⟩ hc
    | param _ _ name line' args m _ _ hm hp =>
      obtain ⟨es, h1, h2⟩ := ih ctx ps ps' x x' hp he ho hrt hat hx
      have hst := (s1 m hm).2
      refine ⟨_ :: es, ?_, UpToLines.leaf (d := ⟨name, line', args, fileName o file, none, none, none, true⟩) (line := t.line) rfl h2⟩
      have hrun := RunOk.next ctx t _ ps _ _ _ _ _ _ hst h1
      simpa using hrun
    | leaf _ _ name line' args _ ps1 _ _ hm hi hp =>
      have hd := doInclude_fields hi
      have hn : d.directive = name ∧ d.args = args := by rw [hd]; exact ⟨rfl, rfl⟩
      have e0 := (payErrors_rel o file).doInclude env configDir ctx (plainStmt o file name line' args) ps
      rw [hi] at e0
      have e1 := hp.rel (payErrors_rel o file)
      have he1 : ps1.payErrors = ps.payErrors := prefix_antisymm (by rw [← he]; exact e1) e0
      obtain ⟨es, h1, h2⟩ := ih ctx ps1 ps' x x' hp (he.trans he1.symm) ho hrt hat hx
      have hag := doInclude_again hsame hi he1 (fun f hf => ho f (hmono hp f hf)) t.line
      have hst := (s2 hm _ _ (by rw [hn.1, hn.2]; exact hag)).1 hb
      refine ⟨_, ?_, UpToLines.leaf (d := d) (line := t.line) hb h2⟩
      have hrun := RunOk.next ctx t _ ps _ _ _ _ _ _ hst h1
      simpa using hrun
    | node => cases hb
  | @block d b ds hs inner toks l1 l2 hc hv hb hbt ht ihb ih =>
    intro ctx ps ps' x x' hp he ho hr ha hx
    have hbn : d.block ≠ none := by rw [hb]; simp
    rcases hr d (.here (by simp)) with ⟨r1, -⟩ | ⟨-, r1, r2⟩
    · exact absurd r1 hc
    obtain ⟨t, mid, rfl, s1, s2⟩ := step_accepts (env := env') (configDir := configDir) (file := file) (ps := ps) hc r2 ha hv l1
      (inner ++ ⟨c!"}", l2, false, none⟩ :: toks ++ x)
    have hrt := hr.tail
    have hat := ha.tail
    have hrb := hr.block hb
    have hab := ha.block hb
    unfold termOf at s1 s2
    rw [if_neg hbn] at s1 s2
    clear hr ha r2 hv
    cases hp with
    | comment => exact absurd ⟨rfl, by simp⟩ hc
    | param => cases hb
    | leaf _ _ name line' args _ ps1 _ _ hm hi hp =>
      have hd := doInclude_fields hi
      rw [hd] at hb; cases hb
    | node _ _ name line' args d0 ps1 b' ps2 _ _ hm hi hpb hp =>
      cases hb
      have hd := doInclude_fields hi
      have hn : d0.directive = name ∧ d0.args = args := by rw [hd]; exact ⟨rfl, rfl⟩
      have e0 := (payErrors_rel o file).doInclude env configDir ctx (plainStmt o file name line' args) ps
      rw [hi] at e0
      simp only at e0
      have e1 := hp.rel (payErrors_rel o file)
      have e2 := hpb.rel (payErrors_rel o file)
      have e3 := (payErrors_rel o file).enter d0 ctx ps1
      have he1 : ps1.payErrors = ps.payErrors := prefix_antisymm (by rw [← he]; exact e3.trans (e2.trans e1)) e0
      have he2 : ps2.payErrors = ps'.payErrors := prefix_antisymm e1 (by rw [he]; exact e0.trans (e3.trans e2))
      have he3 : (enterBlockCtx d0 ctx ps1).2.payErrors = ps'.payErrors := prefix_antisymm (e2.trans e1) (by rw [he]; exact e0.trans e3)
      obtain ⟨bs, i1, i2⟩ := ihb (enterBlockCtx d0 ctx ps1).1 (enterBlockCtx d0 ctx ps1).2 ps2 (⟨c!"}", l2, false, none⟩ :: (toks ++ x)) (toks ++ x) hpb
        (he2.trans he3.symm) (fun f hf => ho f (hmono hp f hf)) hrb (by rw [enterBlockCtx_vals]; exact hab) (Or.inr ⟨l2, rfl⟩)
      obtain ⟨es, h1, h2⟩ := ih ctx ps2 ps' x x' hp he2.symm ho hrt hat hx
      have hinc1 : ∀ f ∈ ps1.included.map (·.1), f ∈ ps'.included.map (·.1) := by
        intro f hf
        refine hmono hp f (hmono hpb f ?_)
        rw [enterBlockCtx_included]; exact hf
      have hag := doInclude_again hsame hi he1 (fun f hf => ho f (hinc1 f hf)) t.line
      have hst := (s2 hm _ _ (by
        show doInclude env' o configDir file ctx (plainStmt o file d0.directive t.line d0.args) ps = _
        rw [hn.1, hn.2]; exact hag)).2 (by simp)
      refine ⟨_, ?_, UpToLines.node (d := { d0 with block := some b }) (line := t.line) (c := bs) rfl i2 h2⟩
      have hent : enterBlockCtx { d0 with line := t.line } ctx ps1 = enterBlockCtx d0 ctx ps1 := rfl
      have hrun := RunOk.block ctx t _ ps _ [] _ ps1 bs _ ps2 es x' ps' hst (by rw [hent]; simpa using i1) h1
      simpa [commentDirectives] using hrun

end Verif
