import Verif.Props.Source
import Verif.Props.Rebuild
import Verif.Spec.Project
/-!
# The grammar and the parser
-/
namespace Verif
open Spec

/-! ## Contexts -/

theorem cutGt_ne (s : Str) : cutGt s ≠ [] := by
  cases s with
  | nil => simp [cutGt]
  | cons c s =>
    unfold cutGt
    split
    · simp
    · split <;> simp

theorem cutGt_key (s : Str) : ctxKey (cutGt s) = s := by
  induction s with
  | nil => rfl
  | cons c s ih =>
    unfold cutGt
    split
    · rename_i h
      subst h
      cases hc : cutGt s with
      | nil => exact absurd hc (cutGt_ne s)
      | cons w ws => rw [hc] at ih; rw [ctxKey_cons, ih]; rfl
    · cases hc : cutGt s with
      | nil => exact absurd hc (cutGt_ne s)
      | cons w ws =>
        rw [hc] at ih
        cases ws with
        | nil => rw [ctxKey_one] at ih ⊢; rw [ih]
        | cons v vs => rw [ctxKey_cons] at ih ⊢; rw [← ih]; rfl

theorem cutGt_plain (s : Str) : ∀ w ∈ cutGt s, '>' ∉ w := by
  induction s with
  | nil => simp [cutGt]
  | cons c s ih =>
    unfold cutGt
    split
    · intro w hw
      rcases List.mem_cons.mp hw with rfl | hw
      exacts [by simp, ih w hw]
    · rename_i hne
      cases hc : cutGt s with
      | nil => exact absurd hc (cutGt_ne s)
      | cons v vs =>
        rw [hc] at ih
        intro w hw
        rcases List.mem_cons.mp hw with rfl | hw
        · intro hm
          rcases List.mem_cons.mp hm with h | h
          · exact hne h.symm
          · exact ih v (by simp) h
        · exact ih w (by simp [hw])

theorem ctxKey_append {p q : List Str} (hp : p ≠ []) (hq : q ≠ []) : ctxKey (p ++ q) = ctxKey p ++ '>' :: ctxKey q := by
  induction p with
  | nil => exact absurd rfl hp
  | cons a p ih =>
    cases p with
    | nil =>
      cases q with
      | nil => exact absurd rfl hq
      | cons b q => rw [List.singleton_append, ctxKey_cons, ctxKey_one]
    | cons b p =>
      rw [List.cons_append, List.cons_append, ctxKey_cons, ← List.cons_append, ih (by simp), ctxKey_cons]
      simp

theorem flatMap_cutGt_ne {ctx : List Str} (h : ctx ≠ []) : ctx.flatMap cutGt ≠ [] := by
  cases ctx with
  | nil => exact absurd rfl h
  | cons a l => simp [cutGt_ne a]

theorem flatMap_cutGt_key (ctx : List Str) : ctxKey (ctx.flatMap cutGt) = ctxKey ctx := by
  induction ctx with
  | nil => rfl
  | cons a l ih =>
    cases l with
    | nil => simp [cutGt_key, ctxKey_one]
    | cons b l =>
      rw [List.flatMap_cons, ctxKey_append (cutGt_ne a) (flatMap_cutGt_ne (by simp)), ih, cutGt_key, ctxKey_cons]

theorem pathOf_key (ctx : List Str) : ctxKey (pathOf ctx) = ctxKey ctx := by
  unfold pathOf
  split
  · rename_i h; subst h; rfl
  · exact flatMap_cutGt_key ctx

theorem cutGt_nil {s : Str} (h : cutGt s = [[]]) : s = [] := by
  have := cutGt_key s
  rw [h] at this
  exact this.symm

theorem pathOf_plain (ctx : List Str) : PlainPath (pathOf ctx) := by
  unfold pathOf
  split
  · exact ⟨by simp, by simp⟩
  · rename_i hne
    refine ⟨?_, ?_⟩
    · intro w hw
      obtain ⟨a, -, h⟩ := List.mem_flatMap.mp hw
      exact cutGt_plain a w h
    · intro h
      cases ctx with
      | nil => cases h
      | cons a l =>
        rw [List.flatMap_cons] at h
        cases l with
        | nil => simp at h; exact hne (by rw [cutGt_nil h])
        | cons b l =>
          have h1 := cutGt_ne a
          have h2 := flatMap_cutGt_ne (ctx := b :: l) (by simp)
          have := congrArg List.length h
          rw [List.length_append] at this
          have h3 := List.length_pos_iff.mpr h1
          have h4 := List.length_pos_iff.mpr h2
          simp only [List.length_singleton] at this
          omega

/-- The rules of the options; without `names` an include directive stands for no files. -/
def rulesOf (o : ParseOptions) (names : List Str → Option (List Str) := fun _ => some []) : Rules :=
  { comments := o.parseComments, ignore := o.ignoreDirectives, strict := o.errorOnUnknownDirectives, skipCtx := o.skipDirectiveContextCheck, skipArgs := o.skipDirectiveArgsCheck,
    sources := if o.directiveSources = [] then [defaultDirectivesMatch] else o.directiveSources,
    names := names }

theorem analyze_rules (fname : Str) (stmt : Directive) (term : Str) (ctx : List Str) (o : ParseOptions) (N : List Str → Option (List Str) := fun _ => some []) :
    analyze fname stmt term ctx o = none ↔ (rulesOf o N).Ok ctx stmt.directive stmt.args term :=
  analyze_iff fname stmt term ctx o _ (by rw [← pathOf_key]; exact contexts_lookup (pathOf_plain ctx))

theorem contains_iff {xs : List Str} {x : Str} : contains xs x = true ↔ x ∈ xs := by
  simp [contains]

theorem contains_false_iff {xs : List Str} {x : Str} : contains xs x = false ↔ x ∉ xs := by
  rw [← contains_iff, Bool.not_eq_true]

/-! ## Statements -/

theorem mapCtx_none {c : List Str} : mapCtx c = none ↔ ∀ m, ¬ InMap c m := by
  constructor
  · intro h m hm
    rw [(mapCtx_eq c m).mpr hm] at h; cases h
  · intro h
    cases hm : mapCtx c with
    | none => rfl
    | some m => exact absurd ((mapCtx_eq c m).mp hm) (h m)

theorem Spec.Words.read {pc : Bool} {mid : List Tok} {args texts : List Str} (h : Words mid args texts) {term : Tok} (ht : term.isTerm = true) (rest : List Tok) :
    ∀ args0 comments0, readArgs pc args0 comments0 (mid ++ term :: rest) =
      some (args0 ++ args, comments0 ++ (if pc then texts else []), term, rest) := by
  induction h with
  | nil => intro a c; simp [readArgs, ht]
  | word hw hm ih =>
    intro a c
    obtain ⟨h1, h2⟩ := wordTok_iff.mp hw
    rw [List.cons_append, readArgs, if_neg (by simp [h1]), if_pos (by simp [h2]), ih]
    simp
  | @comment t text mid args texts hc hm ih =>
    intro a c
    have h1 := isCommentTok_iff.mpr ⟨text, hc⟩
    have h2 : t.isTerm = false := by
      rw [← Bool.not_eq_true, isTerm_mark]
      rintro (h | h | h) <;> (rw [CommentTok, Mark, h.2] at hc; simp at hc)
    rw [List.cons_append, readArgs, if_neg (by simp [h2]), if_neg (by simp [h1])]
    cases pc with
    | true => rw [if_pos rfl, ih, hc.2]; simp
    | false => rw [if_neg (by simp), ih]; simp

theorem prepIf_iff {o : ParseOptions} {file : Str} {t : Tok} {args : List Str} {s : Directive} :
    prepIf (baseStmt o file t args) = some s ↔ ∃ args', StmtArgs t.value args args' ∧ s = baseStmt o file t args' := by
  unfold prepIf StmtArgs
  by_cases hif : t.value = c!"if"
  · rw [if_pos (by rw [baseStmt_directive, hif]; rfl)]
    simp only [if_pos hif]
    constructor
    · intro h
      have h1 := (prepareIfArgs_some h).1
      refine ⟨s.args, h1, ?_⟩
      rw [prepareIfArgs_of (d := baseStmt o file t args) h1] at h
      exact (Option.some.inj h).symm
    · rintro ⟨args', h1, rfl⟩
      exact prepareIfArgs_of (d := baseStmt o file t args) h1
  · rw [if_neg (by rw [baseStmt_directive, beq_iff_eq]; exact hif)]
    simp only [if_neg hif]
    constructor
    · intro h; cases h; exact ⟨args, rfl, rfl⟩
    · rintro ⟨_, rfl, rfl⟩; rfl

theorem commentDirectives_at {o : ParseOptions} (hc : o.combineConfigs = false) (line : Int) (file : Str) (texts : List Str)
    (N : List Str → Option (List Str) := fun _ => some []) :
    commentDirectives line (if o.combineConfigs then file else []) (if o.parseComments then texts else []) =
      if (rulesOf o N).comments then commentsAt line texts else [] := by
  rw [hc]
  show _ = if o.parseComments = true then commentsAt line texts else []
  cases o.parseComments with
  | true =>
    simp only [if_true]
    induction texts with
    | nil => rfl
    | cons t ts ih => simpa [commentDirectives, commentsAt] using ih
  | false => rfl

/-- Include directives are not followed. -/
def NoInclude (o : ParseOptions) (toks : List Tok) : Prop := o.singleFile = true ∨ ∀ t ∈ toks, t.value ≠ c!"include"

theorem NoInclude.mono {o : ParseOptions} {a b : List Tok} (h : NoInclude o a) (hs : ∀ t ∈ b, t ∈ a) : NoInclude o b := by
  rcases h with h | h
  · exact Or.inl h
  · exact Or.inr fun t ht => h t (hs t ht)

theorem NoInclude.doInclude {env : Env} {o : ParseOptions} {configDir file : Str} {ctx : Ctx} {t : Tok} {toks : List Tok} (h : NoInclude o (t :: toks))
    (args : List Str) (ps : PS) : doInclude env o configDir file ctx (baseStmt o file t args) ps = (.ok (baseStmt o file t args), ps) := by
  unfold Verif.doInclude
  rw [if_neg]
  rw [baseStmt_directive]
  rcases h with h | h
  · simp [h]
  · simp [h t (by simp)]

/-! ## Trees without links -/

theorem setLinksList_eq (g : Str → List Str → Bool → Option (List Int)) (ds : List Directive) : setLinksList g ds = ds.map (setLinks g) := by
  induction ds with
  | nil => rfl
  | cons d ds ih => rw [setLinksList, ih]; rfl

theorem setLinksList_append (g : Str → List Str → Bool → Option (List Int)) (a b : List Directive) :
    setLinksList g (a ++ b) = setLinksList g a ++ setLinksList g b := by simp [setLinksList_eq]

theorem unlink_nil : unlink [] = [] := rfl

theorem unlink_append (a b : List Directive) : unlink (a ++ b) = unlink a ++ unlink b := setLinksList_append _ a b

theorem unlink_cons (d : Directive) (ds : List Directive) : unlink (d :: ds) = setLinks (fun _ _ _ => none) d :: unlink ds := rfl

theorem commentDirectives_links (g : Str → List Str → Bool → Option (List Int)) (hg : ∀ args p, g c!"#" args p = none) (line : Int) (file : Str) (cs : List Str) :
    setLinksList g (commentDirectives line file cs) = commentDirectives line file cs := by
  induction cs with
  | nil => rfl
  | cons c cs ih =>
    show setLinks g _ :: setLinksList g (commentDirectives line file cs) = _ :: commentDirectives line file cs
    rw [ih]
    simp only [setLinks, setLinksOpt, hg]

theorem unlink_comments (line : Int) (file : Str) (cs : List Str) : unlink (commentDirectives line file cs) = commentDirectives line file cs :=
  commentDirectives_links _ (fun _ _ => rfl) line file cs

/-! ## What is accepted is a configuration -/

/-- How a run ends: at a closing brace, or at the end of the tokens, maybe within a block. -/
def ConfEnds (r : Rules) (ctx : List Str) (ds : List Directive) (pre toks' : List Tok) : Prop :=
  (∃ body c, pre = body ++ [c] ∧ Mark c c!"}" ∧ Conf r ctx ds body ∧ net body = 0) ∨
  (toks' = [] ∧ (Conf r ctx ds pre ∧ net pre = 0 ∨ 0 < net pre))

theorem baseStmt_plain {o : ParseOptions} (hc : o.combineConfigs = false) (file : Str) (t : Tok) (args : List Str) :
    baseStmt o file t args = { directive := t.value, line := t.line, args := args } := by
  unfold baseStmt; rw [hc]; rfl

theorem RunOk.conf {env : Env} {o : ParseOptions} {configDir file : Str} {ctx : Ctx} {toks : List Tok} {ps : PS}
    {ds : List Directive} {toks' : List Tok} {ps' : PS} (h : RunOk env o configDir file ctx toks ps ds toks' ps')
    (hi : o.ignoreDirectives = []) (hcomb : o.combineConfigs = false) (he : ps'.payErrors.length = ps.payErrors.length) (hst : Statements true toks)
    (N : List Str → Option (List Str))
    (hN : ∀ ctx t args ps stmt' ps', t.value = c!"include" → doInclude env o configDir file ctx (baseStmt o file t args) ps = (.ok stmt', ps') →
      ps'.payErrors.length = ps.payErrors.length → (N args).isSome = true) :
    ∃ pre, toks = pre ++ toks' ∧ Statements true toks' ∧ ConfEnds (rulesOf o N) ctx.vals (unlink ds) pre toks' := by
  induction h with
  | eof => exact ⟨[], rfl, trivial, Or.inr ⟨rfl, Or.inl ⟨.nil, rfl⟩⟩⟩
  | stop ctx t toks ps toks' ps' hs =>
    have hc := step_cases env o configDir file ctx t toks ps
    rw [hs] at hc
    cases hc with
    | close h1 h2 =>
      refine ⟨[t], rfl, ?_, Or.inl ⟨[], t, rfl, is_mark.mp h2, .nil, rfl⟩⟩
      have hterm : t.isTerm = true := isTerm_mark.mpr (Or.inr (Or.inl (is_mark.mp h2)))
      unfold Statements at hst
      rw [if_neg (by simp [isTerm_not_comment hterm]), hterm] at hst
      exact hst.2.2
    | rejectStop => simp [handleError] at he
  | next ctx t toks ps new toks1 ps1 ds toks' ps' hs hr ih =>
    have g1 := ((payErrors_rel o file).step env configDir ctx t toks ps).length_le
    rw [hs] at g1
    have g1 : ps.payErrors.length ≤ ps1.payErrors.length := g1
    have g2 := ((payErrors_rel o file).runOk hr).length_le
    have key : ∀ pre1, t :: toks = pre1 ++ toks1 → Statements true toks1 → net pre1 = 0 →
        (∀ body, Conf (rulesOf o N) ctx.vals (unlink ds) body → Conf (rulesOf o N) ctx.vals (unlink (new ++ ds)) (pre1 ++ body)) →
        ∃ pre, t :: toks = pre ++ toks' ∧ Statements true toks' ∧ ConfEnds (rulesOf o N) ctx.vals (unlink (new ++ ds)) pre toks' := by
      intro pre1 h1 h2 h3 h4
      obtain ⟨pre2, i1, i2, i3⟩ := ih (by omega) h2
      refine ⟨pre1 ++ pre2, by rw [h1, i1, List.append_assoc], i2, ?_⟩
      rcases i3 with ⟨body, c, rfl, j1, j2, j3⟩ | ⟨j1, j2⟩
      · exact Or.inl ⟨pre1 ++ body, c, by simp, j1, h4 _ j2, by rw [net_append]; omega⟩
      · refine Or.inr ⟨j1, ?_⟩
        rw [net_append]
        rcases j2 with ⟨j2, j3⟩ | j2
        · exact Or.inl ⟨h4 _ j2, by omega⟩
        · exact Or.inr (by omega)
    have hc := step_cases env o configDir file ctx t toks ps
    rw [hs] at hc
    cases hc with
    | comment h1 h2 h3 =>
      obtain ⟨text, ht⟩ := isCommentTok_iff.mp h3
      have hopen : t.is c!"{" = false := by
        rw [is_mark_false]; intro hm; rw [CommentTok, Mark, hm.2] at ht; simp at ht
      refine key [t] rfl ?_ (by simp [net, hopen, h2]) ?_
      · unfold Statements at hst
        rwa [if_pos h3] at hst
      · intro body hb
        cases hpc : o.parseComments with
        | true =>
          have := Conf.comment (r := rulesOf o N) hpc ht hb
          simpa [commentStmt, hcomb, ht.2, unlink_cons, setLinks, setLinksOpt] using this
        | false =>
          have := Conf.skip (r := rulesOf o N) hpc ht hb
          simpa using this
    | mapBad => simp [handleError] at g2 he; omega
    | mapOk args comments term rest m R hm ha =>
      obtain ⟨mid, texts, h1, h2, h3, h4, h5, h6, h7⟩ := R.words hst
      have hin := (mapCtx_eq _ _).mp hm
      obtain ⟨k1, k2⟩ := (C27_decision _ _ _ _ hin.2).mp ha
      have hsemi : Mark term c!";" := by
        rcases h5 with h5 | h5
        · rw [h5.2] at k1; simp at k1
        · exact h5
      refine key (t :: (mid ++ [term])) (by rw [h1]; simp) h6 ?_ ?_
      · rw [← List.cons_append, net_append, h7, net_semi hsemi]; rfl
      · intro body hb
        have := Conf.param (r := rulesOf o N) (semi := term) hin h4 h2 hsemi k2 hb
        rw [baseStmt_plain hcomb]
        simpa [unlink_cons, setLinks, setLinksOpt] using this
    | ignored args comments term rest R hm hig => rw [hi] at hig; cases hig
    | rejectSkip => simp [handleError] at g2 he; omega
    | reject => simp [handleError] at g2 he; omega
    | simple args comments term rest stmt stmt' ps' R h1 h2 h3 h4 h5 h6 =>
      obtain ⟨mid, texts, k1, k2, k3, k4, k5, k6, k7⟩ := R.words hst
      have hsemi : Mark term c!";" := by
        rw [is_mark_false] at h6; tauto
      refine key (t :: (mid ++ [term])) (by rw [k1]; simp) k6 ?_ ?_
      · rw [← List.cons_append, net_append, k7, net_semi hsemi]; rfl
      · intro body hb
        obtain ⟨args', e1, rfl⟩ := prepIf_iff.mp h4
        obtain ⟨e2, -⟩ := doInclude_ok rfl h5
        have hok := (analyze_rules _ _ _ _ _ N).mp h3
        rw [hsemi.2] at hok
        have := Conf.simple (r := rulesOf o N) (semi := term) (mapCtx_none.mp h1) (contains_false_iff.mp h2) k4 k2 hsemi hok e1
          (fun hin => hN _ _ _ _ _ _ hin h5 (by omega)) hb
        rw [e2, unlink_append, unlink_append, unlink_comments, unlink_cons, unlink_nil, k3, commentDirectives_at hcomb _ _ _ N, baseStmt_plain hcomb]
        simpa [setLinks, setLinksOpt] using this
  | block ctx t toks ps stmt comments toks1 ps1 b toks2 ps2 ds toks' ps' hs hr1 hr2 ih1 ih2 =>
    have g1 := ((payErrors_rel o file).step env configDir ctx t toks ps).length_le
    rw [hs] at g1
    have g1 : ps.payErrors.length ≤ ps1.payErrors.length := g1
    have g0 := ((payErrors_rel o file).enter stmt ctx ps1).length_le
    have g2 := ((payErrors_rel o file).runOk hr1).length_le
    have g3 := ((payErrors_rel o file).runOk hr2).length_le
    have hc := step_cases env o configDir file ctx t toks ps
    rw [hs] at hc
    cases hc with
    | block args comments term rest stmt0 stmt' ps' R h1 h2 h3 h4 h5 h6 =>
      obtain ⟨mid, texts, k1, k2, k3, k4, k5, k6, k7⟩ := R.words hst
      have hopen := is_mark.mp h6
      obtain ⟨pre1, a1, a2, a3⟩ := ih1 (by omega) k6
      obtain ⟨pre2, b1, b2, b3⟩ := ih2 (by omega) a2
      have hpre : net (t :: mid ++ [term]) = 1 := by rw [net_append, k7, net_open hopen]; rfl
      refine ⟨(t :: mid ++ [term]) ++ (pre1 ++ pre2), by rw [k1, a1, b1]; simp, b2, ?_⟩
      rcases a3 with ⟨body, c, rfl, j1, j2, j3⟩ | ⟨rfl, j⟩
      · obtain ⟨args', e1, rfl⟩ := prepIf_iff.mp h4
        obtain ⟨e2, -⟩ := doInclude_ok rfl h5
        have hdir : stmt.directive = t.value := by rw [e2]; rfl
        have hline : stmt.line = t.line := by rw [e2]; rfl
        have hok := (analyze_rules _ _ _ _ _ N).mp h3
        rw [hopen.2] at hok
        have hnet : net ((t :: mid ++ [term]) ++ (body ++ [c])) = 0 := by
          rw [net_append, hpre, net_append, j3, net_close j1]; rfl
        have hsrc : ∀ body', Conf (rulesOf o N) ctx.vals (unlink ds) body' → Conf (rulesOf o N) ctx.vals
            (unlink ({ stmt with block := some b } ::
              (commentDirectives stmt.line (if o.combineConfigs then file else []) comments ++ ds)))
            ((t :: mid ++ [term]) ++ (body ++ [c]) ++ body') := by
          intro body' hb
          rw [enterBlockCtx_vals, hdir] at j2
          have := Conf.block (r := rulesOf o N) (opening := term) (closing := c) (mapCtx_none.mp h1) (contains_false_iff.mp h2) k4 k2 hopen hok e1
            (fun hin => hN _ _ _ _ _ _ hin h5 (by omega)) j2 j1 hb
          rw [unlink_cons, unlink_append, unlink_comments, k3, hline, commentDirectives_at hcomb _ _ _ N, e2, baseStmt_plain hcomb]
          simpa [setLinks, setLinksOpt, unlink] using this
        rw [← List.append_assoc]
        rcases b3 with ⟨body', c', rfl, l1, l2, l3⟩ | ⟨l1, l2⟩
        · exact Or.inl ⟨_, c', (List.append_assoc _ _ _).symm, l1, hsrc _ l2, by rw [net_append, hnet]; omega⟩
        · refine Or.inr ⟨l1, ?_⟩
          rw [net_append, hnet]
          rcases l2 with ⟨l2, l3⟩ | l2
          · exact Or.inl ⟨hsrc _ l2, by omega⟩
          · exact Or.inr (by omega)
      · have hnil := b1
        rw [List.nil_eq_append_iff] at hnil
        obtain ⟨rfl, rfl⟩ := hnil
        refine Or.inr ⟨rfl, Or.inr ?_⟩
        rw [net_append, hpre, List.append_nil]
        rcases j with ⟨-, j⟩ | j <;> omega

theorem startsWithWord_ok {toks : List Tok} (hst : StartsWithWord toks) : StartsOk toks := by
  intro t ht
  have hsplit : ∀ l : List Tok, (l.filter (!·.isCommentTok)).head? = some t →
      ∃ cs rest, l = cs ++ t :: rest ∧ ∀ c ∈ cs, ∃ text, CommentTok c text := by
    intro l
    induction l with
    | nil => intro h; cases h
    | cons x xs ih =>
      intro h
      by_cases hx : x.isCommentTok = true
      · rw [List.filter_cons, if_neg (by simp [hx])] at h
        obtain ⟨cs, r, h1, h2⟩ := ih h
        refine ⟨x :: cs, r, by rw [h1]; rfl, ?_⟩
        intro y hy
        rcases List.mem_cons.mp hy with rfl | hy
        exacts [isCommentTok_iff.mp hx, h2 y hy]
      · rw [List.filter_cons, if_pos (by simpa using hx)] at h
        cases h
        exact ⟨[], xs, rfl, by simp⟩
  obtain ⟨cs, r, h1, h2⟩ := hsplit _ ht
  have := hst cs t r h1 h2
  rw [is_mark_false]; tauto

/-- A file that is parsed without an error is a configuration: without external lexers and ignored directives. -/
theorem RunOk.lexed_conf {env : Env} {o : ParseOptions} {configDir file : Str} {ctx : Ctx} {data : FileData} {ps : PS}
    {ds : List Directive} {toks' : List Tok} {ps' : PS} (h : RunOk env o configDir file ctx (fileToks o data) ps ds toks' ps')
    (hlex : o.lexers = []) (hi : o.ignoreDirectives = []) (hcomb : o.combineConfigs = false) (he : ps'.payErrors.length = ps.payErrors.length)
    (hst : StartsWithWord (lex data.runes)) (hend : StatementsEnd (lex data.runes)) (N : List Str → Option (List Str))
    (hN : ∀ ctx t args ps stmt' ps', t.value = c!"include" → doInclude env o configDir file ctx (baseStmt o file t args) ps = (.ok stmt', ps') →
      ps'.payErrors.length = ps.payErrors.length → (N args).isSome = true) :
    (∀ t ∈ lex data.runes, t.error = none) ∧ Conf (rulesOf o N) ctx.vals (unlink ds) (lex data.runes) := by
  have hft : fileToks o data = lex data.runes := by unfold fileToks lex; rw [hlex]; rfl
  rw [hft] at h
  obtain ⟨pre, c1, c2, c3, -, c4⟩ := h.clean hi he (lex_errLast _) ((lex_braceOk _).start (startsWithWord_ok hst))
  have hne : ∀ t ∈ lex data.runes, t.error = none := by
    rcases c4 with rfl | c4
    · rw [List.append_nil] at c1; rw [c1]; exact c2
    · have := lex_prefix _ _ _ c1; omega
  refine ⟨hne, ?_⟩
  have hstm : Statements true (lex data.runes) := ((lex_noDup _).start hst).statements (fun _ _ _ _ _ h => by cases h) hend
  obtain ⟨pre, h1, h2, h3⟩ := h.conf hi hcomb he hstm N hN
  rcases h3 with ⟨body, cl, rfl, k1, k2, k3⟩ | ⟨rfl, k⟩
  · have := lex_prefix _ _ _ h1
    rw [net_append, net_close k1] at this
    omega
  · rw [List.append_nil] at h1
    rw [← h1] at k
    rcases k with ⟨k, -⟩ | k
    · exact k
    · rw [lex_net hne] at k
      omega

/-! ## Blocks that are skipped -/

theorem consume_word {t : Tok} (h : WordTok t) (he : t.error = none) (d : Nat) (rest : List Tok) : consume d (t :: rest) = consume d rest := by
  rw [consume.eq_def]
  simp only
  rw [if_neg (by rw [he, is_mark_false.mpr h.2.2.1]; simp), if_neg (by rw [is_mark_false.mpr h.2.1]; simp)]

theorem consume_comment {t : Tok} {text : Str} (h : CommentTok t text) (he : t.error = none) (d : Nat) (rest : List Tok) :
    consume d (t :: rest) = consume d rest := by
  have h1 : t.is c!"}" = false := by
    rw [is_mark_false]; intro hm; rw [CommentTok, Mark, hm.2] at h; simp at h
  have h2 : t.is c!"{" = false := by
    rw [is_mark_false]; intro hm; rw [CommentTok, Mark, hm.2] at h; simp at h
  rw [consume.eq_def]
  simp only
  rw [if_neg (by rw [he, h1]; simp), if_neg (by rw [h2]; simp)]

theorem consume_semi {t : Tok} (h : Mark t c!";") (he : t.error = none) (d : Nat) (rest : List Tok) : consume d (t :: rest) = consume d rest := by
  have h1 : t.is c!"}" = false := by rw [is_mark_false]; intro hm; have := h.2; rw [hm.2] at this; cases this
  have h2 : t.is c!"{" = false := by rw [is_mark_false]; intro hm; have := h.2; rw [hm.2] at this; cases this
  rw [consume.eq_def]
  simp only
  rw [if_neg (by rw [he, h1]; simp), if_neg (by rw [h2]; simp)]

theorem consume_open {t : Tok} (h : Mark t c!"{") (he : t.error = none) (d : Nat) (rest : List Tok) : consume d (t :: rest) = consume (d + 1) rest := by
  have h1 : t.is c!"}" = false := by rw [is_mark_false]; intro hm; have := h.2; rw [hm.2] at this; cases this
  rw [consume.eq_def]
  simp only
  rw [if_neg (by rw [he, h1]; simp), if_pos (is_mark.mpr h)]

theorem consume_close {t : Tok} (h : Mark t c!"}") (d : Nat) (rest : List Tok) : consume (d + 1) (t :: rest) = consume d rest := by
  rw [consume, if_pos (by rw [is_mark.mpr h]; simp)]

theorem Spec.Words.consume {mid : List Tok} {args texts : List Str} (h : Words mid args texts) (he : ∀ t ∈ mid, t.error = none) (d : Nat) (rest : List Tok) :
    consume d (mid ++ rest) = Verif.consume d rest := by
  induction h with
  | nil => rfl
  | word hw _ ih => rw [List.cons_append, consume_word hw (he _ (by simp)), ih fun t ht => he t (by simp [ht])]
  | comment hc _ ih => rw [List.cons_append, consume_comment hc (he _ (by simp)), ih fun t ht => he t (by simp [ht])]

theorem Spec.Shape.consume {toks : List Tok} (h : Shape toks) : ∀ (_ : ∀ t ∈ toks, t.error = none) (d : Nat) (rest : List Tok),
    consume d (toks ++ rest) = Verif.consume d rest := by
  induction h with
  | nil => intros; rfl
  | comment hc _ ih =>
    intro he d rest
    rw [List.cons_append, consume_comment hc (he _ (by simp)), ih fun t ht => he t (by simp [ht])]
  | simple hw hm hs _ ih =>
    intro he d rest
    rw [List.cons_append, consume_word hw (he _ (by simp)), List.append_assoc, hm.consume fun t ht => he t (by simp [ht]), List.cons_append,
      consume_semi hs (he _ (by simp)), ih fun t ht => he t (by simp [ht])]
  | block hw hm ho _ hc _ ihb ih =>
    intro he d rest
    rw [List.cons_append, consume_word hw (he _ (by simp)), List.append_assoc, hm.consume fun t ht => he t (by simp [ht]), List.cons_append,
      consume_open ho (he _ (by simp)), List.append_assoc, ihb fun t ht => he t (by simp [ht]), List.cons_append, consume_close hc,
      ih fun t ht => he t (by simp [ht])]

theorem skipBlock_semi {t : Tok} (h : Mark t c!";") (rest : List Tok) : skipBlock t rest = rest := by
  have h2 : t.is c!"{" = false := by rw [is_mark_false]; intro hm; have := h.2; rw [hm.2] at this; cases this
  rw [skipBlock, if_neg (by rw [h2]; simp)]

theorem skipBlock_open {t closing : Tok} {inner : List Tok} (h : Mark t c!"{") (hi : Shape inner) (hc : Mark closing c!"}")
    (he : ∀ t ∈ inner, t.error = none) (rest : List Tok) : skipBlock t (inner ++ closing :: rest) = rest := by
  rw [skipBlock, if_pos (is_mark.mpr h), hi.consume he, consume, if_pos (by rw [is_mark.mpr hc]; simp)]

/-! ## A configuration is accepted -/

theorem Spec.Conf.run {env : Env} {o : ParseOptions} {configDir file : Str} (hcomb : o.combineConfigs = false)
    {c : List Str} {ds : List Directive} {toks : List Tok} {N : List Str → Option (List Str)} (h : Conf (rulesOf o N) c ds toks) :
    ∀ (ctx : Ctx) (ps : PS) (x x' : List Tok), ctx.vals = c → ps.includes = [] → NoInclude o toks → (∀ t ∈ toks, t.error = none) →
    (x = [] ∧ x' = [] ∨ ∃ cl, Mark cl c!"}" ∧ cl.error = none ∧ x = cl :: x') →
    ∃ ps', RunOk env o configDir file ctx (toks ++ x) ps ds x' ps' ∧ Quiet ps ps' := by
  have semiTerm : ∀ {t : Tok}, Mark t c!";" → t.isTerm = true := fun h => isTerm_mark.mpr (Or.inr (Or.inr h))
  have openTerm : ∀ {t : Tok}, Mark t c!"{" → t.isTerm = true := fun h => isTerm_mark.mpr (Or.inl h)
  have notClose : ∀ {t : Tok}, WordTok t → t.is c!"}" = false := fun h => is_mark_false.mpr h.2.2.1
  induction h with
  | nil =>
    intro ctx ps x x' hv hin hno he hx
    rcases hx with ⟨rfl, rfl⟩ | ⟨cl, h1, h2, rfl⟩
    · exact ⟨ps, .eof ctx ps, Quiet.refl ps⟩
    · refine ⟨ps, .stop _ _ _ _ _ _ ?_, Quiet.refl ps⟩
      exact (StepR.close h2 (is_mark.mpr h1)).step_eq
  | @comment c t text ds toks hpc ht hc ih =>
    intro ctx ps x x' hv hin hno he hx
    obtain ⟨ps', h1, h2⟩ := ih ctx ps x x' hv hin (hno.mono (by simp +contextual)) (fun y hy => he y (by simp [hy])) hx
    have hnc : t.is c!"}" = false := by
      rw [is_mark_false]; intro hm; rw [CommentTok, Mark, hm.2] at ht; simp at ht
    have hs := (StepR.comment (env := env) (o := o) (configDir := configDir) (file := file) (ctx := ctx) (t := t)
      (toks := toks ++ x) (ps := ps) (he t (by simp)) hnc (isCommentTok_iff.mpr ⟨text, ht⟩)).step_eq
    have hpc : o.parseComments = true := hpc
    rw [hpc, if_pos rfl] at hs
    have := RunOk.next _ _ _ _ _ _ _ _ _ _ hs h1
    refine ⟨ps', ?_, h2⟩
    simpa [commentStmt, hcomb, ht.2] using this
  | @skip c t text ds toks hpc ht hc ih =>
    intro ctx ps x x' hv hin hno he hx
    obtain ⟨ps', h1, h2⟩ := ih ctx ps x x' hv hin (hno.mono (by simp +contextual)) (fun y hy => he y (by simp [hy])) hx
    have hnc : t.is c!"}" = false := by
      rw [is_mark_false]; intro hm; rw [CommentTok, Mark, hm.2] at ht; simp at ht
    have hs := (StepR.comment (env := env) (o := o) (configDir := configDir) (file := file) (ctx := ctx) (t := t)
      (toks := toks ++ x) (ps := ps) (he t (by simp)) hnc (isCommentTok_iff.mpr ⟨text, ht⟩)).step_eq
    have hpc : o.parseComments = false := hpc
    rw [hpc, if_neg (by simp)] at hs
    have := RunOk.next _ _ _ _ _ _ _ _ _ _ hs h1
    exact ⟨ps', by simpa using this, h2⟩
  | @param c m t mid args texts semi ds toks hm hw hwords hsemi hargs hc ih =>
    intro ctx ps x x' hv hin hno he hx
    obtain ⟨ps', h1, h2⟩ := ih ctx ps x x' hv hin (hno.mono (by simp +contextual)) (fun y hy => he y (by simp [hy])) hx
    have R : Reads o t (mid ++ semi :: (toks ++ x)) args (if o.parseComments then texts else []) semi (toks ++ x) := by
      refine ⟨he t (by simp), notClose hw, (wordTok_iff.mp hw).2, ?_⟩
      simpa using hwords.read (semiTerm hsemi) (toks ++ x) [] []
    have han : analyzeMapBody file (baseStmt o file t args) semi.value m = none := by
      rw [C27_decision _ _ _ _ hm.2]
      exact ⟨hsemi.2, hargs⟩
    have hs := (StepR.mapOk (env := env) (configDir := configDir) (ctx := ctx) (ps := ps) _ _ _ _ m R (by rw [hv]; exact (mapCtx_eq _ _).mpr hm) han).step_eq
    have := RunOk.next _ _ _ _ _ _ _ _ _ _ hs h1
    rw [baseStmt_plain hcomb] at this
    exact ⟨ps', by simpa using this, h2⟩
  | @ignored c t mid args texts semi ds toks hm hig hw hwords hsemi hc ih =>
    intro ctx ps x x' hv hin hno he hx
    obtain ⟨ps', h1, h2⟩ := ih ctx ps x x' hv hin (hno.mono (by simp +contextual)) (fun y hy => he y (by simp [hy])) hx
    have R : Reads o t (mid ++ semi :: (toks ++ x)) args (if o.parseComments then texts else []) semi (toks ++ x) := by
      refine ⟨he t (by simp), notClose hw, (wordTok_iff.mp hw).2, ?_⟩
      simpa using hwords.read (semiTerm hsemi) (toks ++ x) [] []
    have hs := (StepR.ignored (env := env) (configDir := configDir) (file := file) (ctx := ctx) (ps := ps) _ _ _ _ R (by rw [hv]; exact mapCtx_none.mpr hm)
      (contains_iff.mpr hig)).step_eq
    rw [skipBlock_semi hsemi] at hs
    have := RunOk.next _ _ _ _ _ _ _ _ _ _ hs h1
    exact ⟨ps', by simpa using this, h2⟩
  | @ignoredBlock c t mid args texts opening inner closing ds toks hm hig hw hwords hopen hinner hclose hc ih =>
    intro ctx ps x x' hv hin hno he hx
    obtain ⟨ps', h1, h2⟩ := ih ctx ps x x' hv hin (hno.mono (by simp +contextual)) (fun y hy => he y (by simp [hy])) hx
    have R : Reads o t (mid ++ opening :: (inner ++ closing :: (toks ++ x))) args (if o.parseComments then texts else []) opening
        (inner ++ closing :: (toks ++ x)) := by
      refine ⟨he t (by simp), notClose hw, (wordTok_iff.mp hw).2, ?_⟩
      simpa using hwords.read (openTerm hopen) (inner ++ closing :: (toks ++ x)) [] []
    have hs := (StepR.ignored (env := env) (configDir := configDir) (file := file) (ctx := ctx) (ps := ps) _ _ _ _ R (by rw [hv]; exact mapCtx_none.mpr hm)
      (contains_iff.mpr hig)).step_eq
    rw [skipBlock_open hopen hinner hclose (fun y hy => he y (by simp [hy]))] at hs
    have := RunOk.next _ _ _ _ _ _ _ _ _ _ hs h1
    exact ⟨ps', by simpa using this, h2⟩
  | @simple c t mid args args' texts semi ds toks hm hig hw hwords hsemi hok hargs hfound hc ih =>
    intro ctx ps x x' hv hin hno he hx
    obtain ⟨ps', h1, h2⟩ := ih ctx ps x x' hv hin (hno.mono (by simp +contextual)) (fun y hy => he y (by simp [hy])) hx
    have R : Reads o t (mid ++ semi :: (toks ++ x)) args (if o.parseComments then texts else []) semi (toks ++ x) := by
      refine ⟨he t (by simp), notClose hw, (wordTok_iff.mp hw).2, ?_⟩
      simpa using hwords.read (semiTerm hsemi) (toks ++ x) [] []
    have han : analyze file (baseStmt o file t args) semi.value ctx.vals o = none := by
      rw [analyze_rules, hsemi.2, hv]
      exact hok
    have hs := (StepR.simple (env := env) (configDir := configDir) (ctx := ctx) (ps := ps) _ _ _ _ _ _ _ R (by rw [hv]; exact mapCtx_none.mpr hm)
      (contains_false_iff.mpr hig) han (prepIf_iff.mpr ⟨args', hargs, rfl⟩) (hno.doInclude args' ps)
      (by rw [is_mark_false]; intro h; have := hsemi.2; rw [h.2] at this; cases this)).step_eq
    have := RunOk.next _ _ _ _ _ _ _ _ _ _ hs h1
    rw [commentDirectives_at hcomb _ _ _ N, baseStmt_plain hcomb] at this
    exact ⟨ps', by simpa using this, h2⟩
  | @block c t mid args args' texts opening b inner closing ds toks hm hig hw hwords hopen hok hargs hfound hb hclose hc ihb ih =>
    intro ctx ps x x' hv hin hno he hx
    have hq := enterBlockCtx_quiet (baseStmt o file t args') ctx ps hin
    obtain ⟨ps1, i1, i2⟩ := ihb (enterBlockCtx (baseStmt o file t args') ctx ps).1 (enterBlockCtx (baseStmt o file t args') ctx ps).2
      (closing :: (toks ++ x)) (toks ++ x) (by rw [enterBlockCtx_vals, hv, baseStmt_directive]) (by rw [hq.includes, hin])
      (hno.mono (by simp +contextual)) (fun y hy => he y (by simp [hy])) (Or.inr ⟨closing, hclose, he closing (by simp), rfl⟩)
    obtain ⟨ps', h1, h2⟩ := ih ctx ps1 x x' hv (by rw [i2.includes, hq.includes, hin]) (hno.mono (by simp +contextual)) (fun y hy => he y (by simp [hy])) hx
    have R : Reads o t (mid ++ opening :: (inner ++ closing :: (toks ++ x))) args (if o.parseComments then texts else []) opening
        (inner ++ closing :: (toks ++ x)) := by
      refine ⟨he t (by simp), notClose hw, (wordTok_iff.mp hw).2, ?_⟩
      simpa using hwords.read (openTerm hopen) (inner ++ closing :: (toks ++ x)) [] []
    have han : analyze file (baseStmt o file t args) opening.value ctx.vals o = none := by
      rw [analyze_rules, hopen.2, hv]
      exact hok
    have hs := (StepR.block (env := env) (configDir := configDir) (ctx := ctx) (ps := ps) _ _ _ _ _ _ _ R (by rw [hv]; exact mapCtx_none.mpr hm)
      (contains_false_iff.mpr hig) han (prepIf_iff.mpr ⟨args', hargs, rfl⟩) (hno.doInclude args' ps) (is_mark.mpr hopen)).step_eq
    have := RunOk.block _ _ _ _ _ _ _ _ _ _ _ _ _ _ hs i1 h1
    rw [commentDirectives_at hcomb _ _ _ N, baseStmt_plain hcomb] at this
    exact ⟨ps', by simpa using this, hq.trans (i2.trans h2)⟩

/-! ## The shape of a configuration -/

theorem Spec.Words.statements {mid : List Tok} {args texts : List Str} (h : Words mid args texts) {term : Tok} (ht : Mark term c!";" ∨ Mark term c!"{")
    {rest : List Tok} (hr : Statements true rest) : Statements false (mid ++ term :: rest) := by
  have hterm : term.isTerm = true := isTerm_mark.mpr (by tauto)
  induction h with
  | nil =>
    rw [List.nil_append]
    unfold Statements
    rw [if_neg (by simp [isTerm_not_comment hterm]), hterm]
    refine ⟨by simp, fun _ => ?_, hr⟩
    rw [is_mark_false]
    intro h
    rcases ht with ht | ht <;> (have := ht.2; rw [h.2] at this; cases this)
  | word hw hm ih =>
    obtain ⟨h1, h2⟩ := wordTok_iff.mp hw
    rw [List.cons_append]
    unfold Statements
    rw [if_neg (by simp [h2]), h1]
    exact ⟨by simp, fun _ => is_mark_false.mpr hw.2.2.1, ih⟩
  | comment hc hm ih =>
    rw [List.cons_append]
    unfold Statements
    rw [if_pos (isCommentTok_iff.mpr ⟨_, hc⟩)]
    exact ih

theorem wordTok_statements {t : Tok} (h : WordTok t) {ts : List Tok} (hs : Statements false ts) : Statements true (t :: ts) := by
  obtain ⟨h1, h2⟩ := wordTok_iff.mp h
  unfold Statements
  rw [if_neg (by simp [h2]), h1]
  exact ⟨fun _ => ⟨is_mark_false.mpr h.2.1, is_mark_false.mpr h.2.2.2⟩, by simp, hs⟩

theorem Spec.Conf.shape {r : Rules} {c : List Str} {ds : List Directive} {toks : List Tok} (h : Conf r c ds toks) : Shape toks := by
  induction h with
  | nil => exact .nil
  | comment _ ht _ ih => exact .comment ht ih
  | skip _ ht _ ih => exact .comment ht ih
  | param _ hw hm hs _ _ ih => exact .simple hw hm hs ih
  | ignored _ _ hw hm hs _ ih => exact .simple hw hm hs ih
  | ignoredBlock _ _ hw hm ho hi hc _ ih => exact .block hw hm ho hi hc ih
  | simple _ _ hw hm hs _ _ _ _ ih => exact .simple hw hm hs ih
  | block _ _ hw hm ho _ _ _ _ hc _ ihb ih => exact .block hw hm ho ihb hc ih

theorem Spec.Shape.statements {toks : List Tok} (h : Shape toks) : ∀ rest, Statements true rest → Statements true (toks ++ rest) := by
  induction h with
  | nil => exact fun _ h => h
  | comment ht _ ih =>
    intro rest hr
    rw [List.cons_append]
    unfold Statements
    rw [if_pos (isCommentTok_iff.mpr ⟨_, ht⟩)]
    exact ih rest hr
  | simple hw hm hs _ ih =>
    intro rest hr
    have := wordTok_statements hw (hm.statements (Or.inl hs) (ih rest hr))
    simpa using this
  | @block t mid args texts opening inner closing toks hw hm ho _ hcl _ ihb ih =>
    intro rest hr
    have hc : Statements true (closing :: (toks ++ rest)) := by
      have hterm : closing.isTerm = true := isTerm_mark.mpr (by tauto)
      unfold Statements
      rw [if_neg (by simp [isTerm_not_comment hterm]), hterm]
      refine ⟨fun _ => ?_, by simp, ih rest hr⟩
      rw [is_mark_false, is_mark_false]
      constructor <;> (intro h; have := hcl.2; rw [h.2] at this; cases this)
    have := wordTok_statements hw (hm.statements (Or.inr ho) (ihb _ hc))
    simpa using this

theorem Statements.ends {toks : List Tok} : ∀ {b : Bool}, Statements b toks → StatementsEnd toks := by
  have skip : ∀ (cs : List Tok) (u : Tok) (r : List Tok) (b : Bool), (∀ c ∈ cs, ∃ text, CommentTok c text) → Mark u c!"}" →
      Statements b (cs ++ u :: r) → b = true := by
    intro cs u r b hcs hu h
    induction cs with
    | nil =>
      rw [List.nil_append] at h
      unfold Statements at h
      rw [if_neg (by simp [isTerm_not_comment (isTerm_mark.mpr (Or.inr (Or.inl hu)))])] at h
      by_contra hb
      have := h.2.1 (by simpa using hb)
      rw [is_mark.mpr hu] at this
      cases this
    | cons c cs ih =>
      rw [List.cons_append] at h
      unfold Statements at h
      rw [if_pos (isCommentTok_iff.mpr (hcs c (by simp)))] at h
      exact ih (fun x hx => hcs x (by simp [hx])) h
  intro b h a
  induction a generalizing toks b with
  | nil =>
    rintro t cs u r rfl hcs hu
    rw [List.nil_append] at h
    unfold Statements at h
    split at h
    · rename_i hc
      exact Or.inr (Or.inr (Or.inr (isCommentTok_iff.mp hc)))
    · have := isTerm_mark.mp (skip cs u r _ hcs hu h.2.2)
      tauto
  | cons x a ih =>
    rintro t cs u r rfl hcs hu
    rw [List.cons_append] at h
    unfold Statements at h
    split at h
    · exact ih h t cs u r rfl hcs hu
    · exact ih h.2.2 t cs u r rfl hcs hu

theorem Spec.Shape.starts {toks : List Tok} (h : Shape toks) : StartsWithWord toks := by
  have word : ∀ {t : Tok} {ts : List Tok}, WordTok t → StartsWithWord (t :: ts) := by
    intro t ts hw cs u rest he hcs
    cases cs with
    | nil => cases he; have := hw.2; tauto
    | cons x cs =>
      cases he
      obtain ⟨text, ht⟩ := hcs t (by simp)
      exact absurd ht (hw.1 text)
  have comment : ∀ {t : Tok} {text : Str} {ts : List Tok}, CommentTok t text → StartsWithWord ts → StartsWithWord (t :: ts) := by
    intro t text ts ht hs cs u rest he hcs
    cases cs with
    | nil =>
      cases he
      rintro (h | h | h) <;> (rw [CommentTok, Mark, h.2] at ht; simp at ht)
    | cons x cs =>
      cases he
      exact hs cs u rest rfl (fun y hy => hcs y (by simp [hy]))
  induction h with
  | nil =>
    intro cs u rest he
    simp at he
  | comment ht _ ih => exact comment ht ih
  | simple hw => exact word hw
  | block hw => exact word hw

theorem Spec.Shape.ends {toks : List Tok} (h : Shape toks) : StatementsEnd toks := by
  have := h.statements [] trivial
  rw [List.append_nil] at this
  exact this.ends

/-! ## Soundness for all lexers and ignored directives -/

/-- A run over statements without errors that gives no error: they are a configuration. -/
theorem Spec.Shape.conf {env : Env} {o : ParseOptions} {configDir file : Str} (hcomb : o.combineConfigs = false) (N : List Str → Option (List Str))
    (hN : ∀ ctx t args ps stmt' ps', t.value = c!"include" → doInclude env o configDir file ctx (baseStmt o file t args) ps = (.ok stmt', ps') →
      ps'.payErrors.length = ps.payErrors.length → (N args).isSome = true) {toks : List Tok} (h : Shape toks) :
    ∀ (ctx : Ctx) (ps : PS) (x : List Tok) (ds : List Directive) (x' : List Tok) (ps' : PS), (∀ t ∈ toks, t.error = none) →
      (x = [] ∨ ∃ cl y, x = cl :: y ∧ Mark cl c!"}" ∧ cl.error = none) → RunOk env o configDir file ctx (toks ++ x) ps ds x' ps' →
      ps'.payErrors.length = ps.payErrors.length → Conf (rulesOf o N) ctx.vals (unlink ds) toks ∧ x' = x.drop 1 := by
  have semiTerm : ∀ {t : Tok}, Mark t c!";" → t.isTerm = true := fun h => isTerm_mark.mpr (Or.inr (Or.inr h))
  have openTerm : ∀ {t : Tok}, Mark t c!"{" → t.isTerm = true := fun h => isTerm_mark.mpr (Or.inl h)
  have notClose : ∀ {t : Tok}, WordTok t → t.is c!"}" = false := fun h => is_mark_false.mpr h.2.2.1
  have hsame : ∀ {t : Tok} {ts : List Tok} {args comments : List Str} {term : Tok} {rest : List Tok} {a c tm r}, Reads o t ts args comments term rest →
      Reads o t ts a c tm r → a = args ∧ c = comments ∧ tm = term ∧ r = rest := by
    intro t ts args comments term rest a c tm r R R'
    have := R'.read.symm.trans R.read
    simpa using this
  induction h with
  | nil =>
    intro ctx ps x ds x' ps' he hx h hpe
    rcases hx with rfl | ⟨cl, y, rfl, hm, hce⟩
    · cases h
      exact ⟨.nil, rfl⟩
    · have hs := (StepR.close (env := env) (o := o) (configDir := configDir) (file := file) (ctx := ctx) (toks := y) (ps := ps) hce (is_mark.mpr hm)).step_eq
      rw [List.nil_append] at h
      cases h with
      | stop _ _ _ _ _ _ h => rw [hs] at h; cases h; exact ⟨.nil, rfl⟩
      | next _ _ _ _ _ _ _ _ _ _ h => rw [hs] at h; cases h
      | block _ _ _ _ _ _ _ _ _ _ _ _ _ _ h => rw [hs] at h; cases h
  | @comment t text toks ht _ ih =>
    intro ctx ps x ds x' ps' he hx h hpe
    have hnc : t.is c!"}" = false := by
      rw [is_mark_false]; intro hm; rw [CommentTok, Mark, hm.2] at ht; simp at ht
    have hs := (StepR.comment (env := env) (o := o) (configDir := configDir) (file := file) (ctx := ctx) (t := t)
      (toks := toks ++ x) (ps := ps) (he t (by simp)) hnc (isCommentTok_iff.mpr ⟨text, ht⟩)).step_eq
    rw [List.cons_append] at h
    cases h with
    | stop _ _ _ _ _ _ h => rw [hs] at h; cases h
    | block _ _ _ _ _ _ _ _ _ _ _ _ _ _ h => rw [hs] at h; cases h
    | next _ _ _ _ new toks1 ps1 ds _ _ h hr =>
      rw [hs] at h
      cases h
      obtain ⟨h1, h2⟩ := ih ctx ps x ds x' ps' (fun y hy => he y (by simp [hy])) hx hr hpe
      refine ⟨?_, h2⟩
      cases hpc : o.parseComments with
      | true =>
        have := Conf.comment (r := rulesOf o N) hpc ht h1
        simpa [commentStmt, hcomb, ht.2, unlink_cons, setLinks, setLinksOpt] using this
      | false =>
        have := Conf.skip (r := rulesOf o N) hpc ht h1
        simpa using this
  | @simple t mid args texts semi toks hw hwords hsemi _ ih =>
    intro ctx ps x ds x' ps' he hx h hpe
    have R : Reads o t (mid ++ semi :: (toks ++ x)) args (if o.parseComments then texts else []) semi (toks ++ x) := by
      refine ⟨he t (by simp), notClose hw, (wordTok_iff.mp hw).2, ?_⟩
      simpa using hwords.read (semiTerm hsemi) (toks ++ x) [] []
    have e : t :: (mid ++ semi :: toks) ++ x = t :: (mid ++ semi :: (toks ++ x)) := by simp
    rw [e] at h
    cases h with
    | stop _ _ _ _ _ _ hs =>
      have hc := step_cases env o configDir file ctx t (mid ++ semi :: (toks ++ x)) ps
      rw [hs] at hc
      cases hc with
      | close h1 h2 => rw [R.notClose] at h2; cases h2
      | rejectStop => simp [handleError] at hpe
    | block _ _ _ _ _ _ _ _ _ _ _ _ _ _ hs =>
      have hc := step_cases env o configDir file ctx t (mid ++ semi :: (toks ++ x)) ps
      rw [hs] at hc
      cases hc with
      | block args comments term rest stmt0 stmt' ps' R' h1 h2 h3 h4 h5 h6 =>
        obtain ⟨-, -, rfl, -⟩ := hsame R R'
        have := is_mark.mp h6
        have := hsemi.2.symm.trans this.2
        cases this
    | next _ _ _ _ new toks1 ps1 ds _ _ hs hr =>
      have g1 := ((payErrors_rel o file).step env configDir ctx t (mid ++ semi :: (toks ++ x)) ps).length_le
      rw [hs] at g1
      have g1 : ps.payErrors.length ≤ ps1.payErrors.length := g1
      have g2 := ((payErrors_rel o file).runOk hr).length_le
      have hc := step_cases env o configDir file ctx t (mid ++ semi :: (toks ++ x)) ps
      rw [hs] at hc
      have go := fun hr' => ih ctx ps1 x ds x' ps' (fun y hy => he y (by simp [hy])) hx hr' (by omega)
      cases hc with
      | comment h1 h2 h3 => rw [R.notComment] at h3; cases h3
      | mapBad => simp [handleError] at g2 hpe; omega
      | mapOk args comments term rest m R' hm ha =>
        obtain ⟨rfl, rfl, rfl, rfl⟩ := hsame R R'
        have hin := (mapCtx_eq _ _).mp hm
        obtain ⟨-, k2⟩ := (C27_decision _ _ _ _ hin.2).mp ha
        obtain ⟨h1, h2⟩ := go hr
        refine ⟨?_, h2⟩
        have := Conf.param (r := rulesOf o N) hin hw hwords hsemi k2 h1
        rw [baseStmt_plain hcomb]
        simpa [unlink_cons, setLinks, setLinksOpt] using this
      | ignored args comments term rest R' hm hig =>
        obtain ⟨rfl, rfl, rfl, rfl⟩ := hsame R R'
        rw [skipBlock_semi hsemi] at hr
        obtain ⟨h1, h2⟩ := go hr
        exact ⟨by simpa using Conf.ignored (r := rulesOf o N) (mapCtx_none.mp hm) (contains_iff.mp hig) hw hwords hsemi h1, h2⟩
      | rejectSkip => simp [handleError] at g2 hpe; omega
      | reject => simp [handleError] at g2 hpe; omega
      | simple args comments term rest stmt stmt' ps' R' h1 h2 h3 h4 h5 h6 =>
        obtain ⟨rfl, rfl, rfl, rfl⟩ := hsame R R'
        obtain ⟨k1, k2⟩ := go hr
        refine ⟨?_, k2⟩
        obtain ⟨args', e1, rfl⟩ := prepIf_iff.mp h4
        obtain ⟨e2, -⟩ := doInclude_ok rfl h5
        have hok := (analyze_rules _ _ _ _ _ N).mp h3
        rw [hsemi.2] at hok
        have := Conf.simple (r := rulesOf o N) (mapCtx_none.mp h1) (contains_false_iff.mp h2) hw hwords hsemi hok e1
          (fun hin => hN _ _ _ _ _ _ hin h5 (by omega)) k1
        rw [e2, unlink_append, unlink_append, unlink_comments, unlink_cons, unlink_nil, commentDirectives_at hcomb _ _ _ N, baseStmt_plain hcomb]
        simpa [setLinks, setLinksOpt] using this
  | @block t mid args texts opening inner closing toks hw hwords hopen hshape hclose _ ihb ih =>
    intro ctx ps x ds x' ps' he hx h hpe
    have R : Reads o t (mid ++ opening :: (inner ++ closing :: (toks ++ x))) args (if o.parseComments then texts else []) opening
        (inner ++ closing :: (toks ++ x)) := by
      refine ⟨he t (by simp), notClose hw, (wordTok_iff.mp hw).2, ?_⟩
      simpa using hwords.read (openTerm hopen) (inner ++ closing :: (toks ++ x)) [] []
    have e : t :: (mid ++ opening :: (inner ++ closing :: toks)) ++ x = t :: (mid ++ opening :: (inner ++ closing :: (toks ++ x))) := by simp
    rw [e] at h
    cases h with
    | stop _ _ _ _ _ _ hs =>
      have hc := step_cases env o configDir file ctx t (mid ++ opening :: (inner ++ closing :: (toks ++ x))) ps
      rw [hs] at hc
      cases hc with
      | close h1 h2 => rw [R.notClose] at h2; cases h2
      | rejectStop => simp [handleError] at hpe
    | next _ _ _ _ new toks1 ps1 ds _ _ hs hr =>
      have g1 := ((payErrors_rel o file).step env configDir ctx t (mid ++ opening :: (inner ++ closing :: (toks ++ x))) ps).length_le
      rw [hs] at g1
      have g1 : ps.payErrors.length ≤ ps1.payErrors.length := g1
      have g2 := ((payErrors_rel o file).runOk hr).length_le
      have hc := step_cases env o configDir file ctx t (mid ++ opening :: (inner ++ closing :: (toks ++ x))) ps
      rw [hs] at hc
      cases hc with
      | comment h1 h2 h3 => rw [R.notComment] at h3; cases h3
      | mapBad => simp [handleError] at g2 hpe; omega
      | mapOk args comments term rest m R' hm ha =>
        obtain ⟨rfl, rfl, rfl, rfl⟩ := hsame R R'
        have hin := (mapCtx_eq _ _).mp hm
        obtain ⟨k1, -⟩ := (C27_decision _ _ _ _ hin.2).mp ha
        rw [hopen.2] at k1; simp at k1
      | ignored args comments term rest R' hm hig =>
        obtain ⟨rfl, rfl, rfl, rfl⟩ := hsame R R'
        rw [skipBlock_open hopen hshape hclose (fun y hy => he y (by simp [hy]))] at hr
        obtain ⟨h1, h2⟩ := ih ctx _ x ds x' ps' (fun y hy => he y (by simp [hy])) hx hr (by omega)
        exact ⟨by simpa using Conf.ignoredBlock (r := rulesOf o N) (mapCtx_none.mp hm) (contains_iff.mp hig) hw hwords hopen hshape hclose h1, h2⟩
      | rejectSkip => simp [handleError] at g2 hpe; omega
      | reject => simp [handleError] at g2 hpe; omega
      | simple args comments term rest stmt stmt' ps' R' h1 h2 h3 h4 h5 h6 =>
        obtain ⟨-, -, rfl, -⟩ := hsame R R'
        exact absurd hopen (is_mark_false.mp h6)
    | block _ _ _ _ stmt comments toks1 ps1 b toks2 ps2 ds _ _ hs hr1 hr2 =>
      have g1 := ((payErrors_rel o file).step env configDir ctx t (mid ++ opening :: (inner ++ closing :: (toks ++ x))) ps).length_le
      rw [hs] at g1
      have g1 : ps.payErrors.length ≤ ps1.payErrors.length := g1
      have g0 := ((payErrors_rel o file).enter stmt ctx ps1).length_le
      have g2 := ((payErrors_rel o file).runOk hr1).length_le
      have g3 := ((payErrors_rel o file).runOk hr2).length_le
      have hc := step_cases env o configDir file ctx t (mid ++ opening :: (inner ++ closing :: (toks ++ x))) ps
      rw [hs] at hc
      cases hc with
      | block args comments term rest stmt0 stmt' ps' R' h1 h2 h3 h4 h5 h6 =>
        obtain ⟨rfl, rfl, rfl, rfl⟩ := hsame R R'
        obtain ⟨j1, j2⟩ := ihb _ _ (closing :: (toks ++ x)) _ _ _ (fun y hy => he y (by simp [hy]))
          (Or.inr ⟨closing, toks ++ x, rfl, hclose, he closing (by simp)⟩) hr1 (by omega)
        rw [j2] at hr2
        obtain ⟨k1, k2⟩ := ih ctx ps2 x ds x' _ (fun y hy => he y (by simp [hy])) hx hr2 (by omega)
        refine ⟨?_, k2⟩
        obtain ⟨args', e1, rfl⟩ := prepIf_iff.mp h4
        obtain ⟨e2, -⟩ := doInclude_ok rfl h5
        have hdir : stmt.directive = t.value := by rw [e2]; rfl
        have hline : stmt.line = t.line := by rw [e2]; rfl
        have hok := (analyze_rules _ _ _ _ _ N).mp h3
        rw [hopen.2] at hok
        rw [enterBlockCtx_vals, hdir] at j1
        have := Conf.block (r := rulesOf o N) (mapCtx_none.mp h1) (contains_false_iff.mp h2) hw hwords hopen hok e1
          (fun hin => hN _ _ _ _ _ _ hin h5 (by omega)) j1 hclose k1
        rw [unlink_cons, unlink_append, unlink_comments, hline, commentDirectives_at hcomb _ _ _ N, e2, baseStmt_plain hcomb]
        simpa [setLinks, setLinksOpt, unlink] using this

/-- The tokens of the file are statements without errors; without external lexers and ignored directives it is enough that it starts with a word and that its
statements are ended. -/
def Formed (o : ParseOptions) (data : FileData) : Prop :=
  (∀ t ∈ fileToks o data, t.error = none) ∧ Shape (fileToks o data) ∨
  o.lexers = [] ∧ o.ignoreDirectives = [] ∧ StartsWithWord (lex data.runes) ∧ StatementsEnd (lex data.runes)

theorem fileToks_lex {o : ParseOptions} (h : o.lexers = []) (data : FileData) : fileToks o data = lex data.runes := by
  unfold fileToks lex; rw [h]; rfl

/-- A file that is parsed without an error is a configuration. -/
theorem RunOk.file_conf {env : Env} {o : ParseOptions} {configDir file : Str} {ctx : Ctx} {data : FileData} {ps : PS}
    {ds : List Directive} {toks' : List Tok} {ps' : PS} (h : RunOk env o configDir file ctx (fileToks o data) ps ds toks' ps')
    (hcomb : o.combineConfigs = false) (he : ps'.payErrors.length = ps.payErrors.length)
    (hform : Formed o data) (N : List Str → Option (List Str))
    (hN : ∀ ctx t args ps stmt' ps', t.value = c!"include" → doInclude env o configDir file ctx (baseStmt o file t args) ps = (.ok stmt', ps') →
      ps'.payErrors.length = ps.payErrors.length → (N args).isSome = true) :
    (∀ t ∈ fileToks o data, t.error = none) ∧ Conf (rulesOf o N) ctx.vals (unlink ds) (fileToks o data) := by
  rcases hform with ⟨h1, h2⟩ | ⟨hlex, hi, hst, hend⟩
  · exact ⟨h1, (h2.conf hcomb N hN ctx ps [] ds toks' ps' h1 (Or.inl rfl) (by rw [List.append_nil]; exact h) he).1⟩
  · rw [fileToks_lex hlex]
    exact h.lexed_conf hlex hi hcomb he hst hend N hN

end Verif
