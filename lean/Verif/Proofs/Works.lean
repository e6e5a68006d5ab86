import Verif.Proofs.Outcome
import Verif.Proofs.Project
import Verif.Spec.Works
/-!
# Runs and worklists with errors
-/
namespace Verif
open Spec

/-! ## Errors that are noted -/

/-- Errors of the file on these lines have been noted. -/
structure Marks (file : Str) (ls : List (Option Int)) (ps ps' : PS) : Prop where
  pay : ps'.payErrors.map (fun e => (e.file, e.line)) = ps.payErrors.map (fun e => (e.file, e.line)) ++ ls.map (fun l => (file, l))
  cfg : ps'.cfgErrors.map (fun e => e.line) = ps.cfgErrors.map (fun e => e.line) ++ ls
  payStatus : ps'.payStatus = if ls = [] then ps.payStatus else c!"failed"
  cfgStatus : ps'.cfgStatus = if ls = [] then ps.cfgStatus else c!"failed"

theorem Calm.marks {file : Str} {a b : PS} (h : Calm a b) : Marks file [] a b :=
  ⟨by rw [h.payErrors]; simp, by rw [h.cfgErrors]; simp, by rw [h.payStatus]; rfl, by rw [h.cfgStatus]; rfl⟩

theorem Marks.trans {file : Str} {l l' : List (Option Int)} {a b c : PS} (h : Marks file l a b) (h' : Marks file l' b c) : Marks file (l ++ l') a c := by
  refine ⟨by rw [h'.pay, h.pay]; simp, by rw [h'.cfg, h.cfg]; simp, ?_, ?_⟩
  · rw [h'.payStatus, h.payStatus]
    by_cases e : l = [] <;> by_cases e' : l' = [] <;> simp [e, e']
  · rw [h'.cfgStatus, h.cfgStatus]
    by_cases e : l = [] <;> by_cases e' : l' = [] <;> simp [e, e']

theorem Marks.one (o : ParseOptions) (file : Str) (ps : PS) (e : GoErr) : Marks file [e.line?] ps (handleError o file ps e) :=
  ⟨by simp [handleError], by simp [handleError], by simp [handleError], by simp [handleError]⟩

theorem Noted.marks {o : ParseOptions} {file : Str} {ls : List Int} {a b : PS} (h : Noted o file ls a b) : Marks file (ls.map some) a b := by
  obtain ⟨n, es, e1, rfl⟩ := h
  have key : ∀ (es : List GoErr) (a : PS), Marks file (es.map GoErr.line?) a (es.foldl (handleError o file) a) := by
    intro es
    induction es with
    | nil => intro a; exact (Calm.refl a).marks
    | cons e es ih => intro a; exact (Marks.one o file a e).trans (ih _)
  rw [← e1]
  exact ⟨(key es a).1, (key es a).2, (key es a).3, (key es a).4⟩

theorem Noted.frame {o : ParseOptions} {file : Str} {ls : List Int} {a b : PS} (h : Noted o file ls a b) :
    b.included = a.included ∧ b.includes = a.includes ∧ b.includeEdges = a.includeEdges := by
  obtain ⟨n, es, -, rfl⟩ := h
  have key : ∀ (es : List GoErr) (a : PS), (es.foldl (handleError o file) a).included = a.included ∧ (es.foldl (handleError o file) a).includes = a.includes ∧
      (es.foldl (handleError o file) a).includeEdges = a.includeEdges := by
    intro es
    induction es with
    | nil => intro a; exact ⟨rfl, rfl, rfl⟩
    | cons e es ih => intro a; exact ih (handleError o file a e)
  exact key es a

/-! ## Moves -/

/-- From `ps` to `ps'` errors on the lines `ls` were noted and the files `rs` included. -/
structure Moved (file : Str) (ls : List Int) (rs : List Ref) (K : List Ref) (capOf : Nat → Nat) (ps : PS) (capOf' : Nat → Nat) (ps' : PS) : Prop where
  marks : Marks file (ls.map some) ps ps'
  caps : ∀ a < ps.nextArr, capOf' a = capOf a
  arr : ps.nextArr ≤ ps'.nextArr
  links : Links (collect K rs) capOf' ps'
  edges : ∀ u, outEdges ps'.includeEdges u = outEdges ps.includeEdges u ++ if u = file then rs.map (·.1) else []

theorem Moved.refl {file : Str} {K : List Ref} {capOf : Nat → Nat} {ps : PS} (h : Links K capOf ps) : Moved file [] [] K capOf ps capOf ps :=
  ⟨(Calm.refl ps).marks, fun _ _ => rfl, Nat.le_refl _, h, fun u => by simp⟩

theorem Moved.trans {file : Str} {ls ls' : List Int} {rs rs' K : List Ref} {c c1 c2 : Nat → Nat} {a a1 a2 : PS} (h : Moved file ls rs K c a c1 a1)
    (h' : Moved file ls' rs' (collect K rs) c1 a1 c2 a2) : Moved file (ls ++ ls') (rs ++ rs') K c a c2 a2 where
  marks := by rw [List.map_append]; exact h.marks.trans h'.marks
  caps n hn := by rw [h'.caps n (by have := h.arr; omega), h.caps n hn]
  arr := Nat.le_trans h.arr h'.arr
  links := by rw [collect_append]; exact h'.links
  edges u := by
    rw [h'.edges, h.edges]
    split <;> simp

theorem Noted.moved {o : ParseOptions} {file : Str} {ls : List Int} {a b : PS} (h : Noted o file ls a b) (hn : b.nextArr = a.nextArr) {K : List Ref}
    {capOf : Nat → Nat} (hl : Links K capOf a) : Moved file ls [] K capOf a capOf b where
  marks := h.marks
  caps _ _ := rfl
  arr := by omega
  links := by
    obtain ⟨h1, h2, -⟩ := h.frame
    refine ⟨by rw [h1]; exact hl.table, hl.nodup, ?_⟩
    intro f hf
    rw [h2] at hf
    rw [hn]
    exact hl.good f hf
  edges u := by rw [h.frame.2.2]; simp

theorem enterBlockCtx_moved {file : Str} {K : List Ref} {capOf : Nat → Nat} {ps : PS} (h : Links K capOf ps) {ctx : Ctx} (hc : CtxOk capOf ps.nextArr ctx)
    (stmt : Directive) : ∃ capOf', Moved file [] [] K capOf ps capOf' (enterBlockCtx stmt ctx ps).2 ∧
      CtxOk capOf' (enterBlockCtx stmt ctx ps).2.nextArr (enterBlockCtx stmt ctx ps).1 := by
  obtain ⟨c1, b1, b2, b3, b4⟩ := h.good.enter (stmt := stmt) hc
  exact ⟨c1, ⟨(enterBlockCtx_calm stmt ctx ps).marks, b1, b2, ⟨by rw [enterBlockCtx_included]; exact h.table, h.nodup, b4⟩,
    fun u => by rw [enterBlockCtx_edges]; simp⟩, b3⟩

/-! ## Include directives -/

/-- `look` says what include directives come to. -/
structure Looks (env : Env) (o : ParseOptions) (configDir : Str) (look : List Str → Target) : Prop where
  files : ∀ file ctx (stmt : Directive) ps l, stmt.directive = c!"include" → look stmt.args = .files l →
    ∃ g n, doInclude env o configDir file ctx stmt ps =
      (.ok (addIncludes file ctx stmt { ps with globs := g, opens := n } l).1, (addIncludes file ctx stmt { ps with globs := g, opens := n } l).2)
  missing : ∀ file ctx (stmt : Directive) ps, stmt.directive = c!"include" → look stmt.args = .missing →
    ∃ g n e, doInclude env o configDir file ctx stmt ps = (.ok stmt, handleError o file { ps with globs := g, opens := n } (.parse e)) ∧ e.line = some stmt.line
  noName : ∀ file ctx (stmt : Directive) ps, stmt.directive = c!"include" → look stmt.args = .noName →
    ∃ g n e, doInclude env o configDir file ctx stmt ps = (.err e, { ps with globs := g, opens := n }) ∧ e.line? = some stmt.line
  badPattern : ∀ file ctx (stmt : Directive) ps, stmt.directive = c!"include" → look stmt.args = .badPattern →
    ∃ g n e, doInclude env o configDir file ctx stmt ps = (.err e, { ps with globs := g, opens := n }) ∧ e.line? = none

/-- The links of a directive. -/
def linksOf (look : List Str → Target) (F : List Str) (d : Directive) : Option (List Int) :=
  match standsFor (namesOf look) d.directive d.args d.isMapBlockParameter with
  | [] => none
  | f :: fs => some ((f :: fs).map fun f => (F.idxOf f : Int))

theorem doInclude_moved {env : Env} {o : ParseOptions} {configDir : Str} {look : List Str → Target} (hlook : Looks env o configDir look) {file : Str} {ctx : Ctx}
    {d : Directive} (hd : d.directive = c!"include") (hm : d.isMapBlockParameter = false) (hi : d.includes = none) {K : List Ref} {capOf : Nat → Nat} {ps : PS}
    (hl : Links K capOf ps) (hc : CtxOk capOf ps.nextArr ctx) :
    (fatal look d = none → ∃ d' ps', doInclude env o configDir file ctx d ps = (.ok d', ps') ∧ ps'.nextArr = ps.nextArr ∧
      Moved file (missing look [d]) (refsHere look ctx.vals d) K capOf ps capOf ps' ∧
      ∀ F, (collect K (refsHere look ctx.vals d)).map (·.1) <+: F → d' = { d with includes := linksOf look F d }) ∧
    ∀ line, fatal look d = some line → ∃ e ps', doInclude env o configDir file ctx d ps = (.err e, ps') ∧ e.line? = line ∧
      Moved file [] [] K capOf ps capOf ps' := by
  have ht : targetOf look d = look d.args := if_pos ⟨hd, hm⟩
  have hs : standsFor (namesOf look) d.directive d.args d.isMapBlockParameter = (look d.args).names.getD [] := by
    unfold standsFor namesOf; rw [if_pos ⟨hd, hm⟩]
  have fine : ∀ g n, Links K capOf { ps with globs := g, opens := n } := fun g n => ⟨hl.1, hl.2, hl.3⟩
  have idle : ∀ g n, Moved file [] [] K capOf ps capOf { ps with globs := g, opens := n } := fun g n =>
    ⟨Calm.marks ⟨rfl, rfl, rfl, rfl⟩, fun _ _ => rfl, Nat.le_refl _, fine g n, fun u => by simp⟩
  unfold fatal missing refsHere linksOf
  simp only [List.flatMap_cons, List.flatMap_nil, List.append_nil, hs, ht]
  cases hk : look d.args with
  | files l =>
    simp only [Target.names, Option.getD_some, reduceCtorEq, if_false, IsEmpty.forall_iff, implies_true, and_true, forall_const]
    obtain ⟨g, n, h1⟩ := hlook.files file ctx d ps l hd hk
    obtain ⟨a1, a2, a3⟩ := addIncludes_links (fine g n) hc file d l
    refine ⟨_, _, h1, a2, ⟨?_, fun _ _ => rfl, by rw [a2], a1, fun u => ?_⟩, fun F hF => ?_⟩
    · exact Calm.marks (Calm.trans (b := { ps with globs := g, opens := n }) ⟨rfl, rfl, rfl, rfl⟩ (addIncludes_calm ..))
    · rw [addIncludes_edges]; simp [Function.comp_def]
    · rw [a3 F hF, hi]
      cases l <;> rfl
  | missing =>
    simp only [Target.names, Option.getD_none, if_true, IsEmpty.forall_iff, implies_true, and_true, forall_const, List.map_nil, reduceCtorEq]
    obtain ⟨g, n, e, h1, h2⟩ := hlook.missing file ctx d ps hd hk
    refine ⟨_, _, h1, rfl, ⟨?_, fun _ _ => rfl, Nat.le_refl _, ⟨hl.1, hl.2, hl.3⟩, fun u => by simp [handleError]⟩, fun F hF => ?_⟩
    · have := Marks.one o file { ps with globs := g, opens := n } (.parse e)
      rw [show GoErr.line? (.parse e) = some d.line from h2] at this
      exact ⟨this.1, this.2, this.3, this.4⟩
    · rw [← hi]
      cases d; rfl
  | noName =>
    simp only [reduceCtorEq, IsEmpty.forall_iff, true_and, Option.some.injEq, forall_eq']
    obtain ⟨g, n, e, h1, h2⟩ := hlook.noName file ctx d ps hd hk
    exact ⟨e, _, h1, h2, idle g n⟩
  | badPattern =>
    simp only [reduceCtorEq, IsEmpty.forall_iff, true_and, Option.some.injEq, forall_eq']
    obtain ⟨g, n, e, h1, h2⟩ := hlook.badPattern file ctx d ps hd hk
    exact ⟨e, _, h1, h2, idle g n⟩

/-! ## Statements -/

/-- The directives stand for nothing and have no blocks. -/
def Idle (ds : List Directive) : Prop :=
  ∀ d ∈ ds, d.block = none ∧ d.includes = none ∧ ¬ (d.directive = c!"include" ∧ d.isMapBlockParameter = false)

theorem Idle.here (look : List Str → Target) {d : Directive} (h : ¬ (d.directive = c!"include" ∧ d.isMapBlockParameter = false)) :
    standsFor (namesOf look) d.directive d.args d.isMapBlockParameter = [] ∧ targetOf look d = .files [] := ⟨if_neg h, if_neg h⟩

theorem Idle.facts {ds : List Directive} (h : Idle ds) (look : List Str → Target) (ctx F : List Str) :
    missing look ds = [] ∧ refsList (namesOf look) ctx ds = [] ∧ link (namesOf look) F ds = ds ∧ ∀ d ∈ ds, fatal look d = none := by
  induction ds with
  | nil => exact ⟨rfl, rfl, rfl, fun d hd => absurd hd (by simp)⟩
  | cons d ds ih =>
    obtain ⟨i1, i2, i3, i4⟩ := ih fun d hd => h d (List.mem_cons_of_mem _ hd)
    obtain ⟨h1, h2, h3'⟩ := h d (by simp)
    obtain ⟨h4, h3⟩ := Idle.here look h3'
    have hf : fatal look d = none := by unfold fatal; rw [h3]
    refine ⟨?_, ?_, ?_, ?_⟩
    · unfold missing at i1 ⊢
      rw [List.flatMap_cons, i1, h3]; rfl
    · rw [refsList, i2, refs_dir, h4, h1]; rfl
    · rw [link_cons, i3, h4, h1]
      simp only [Option.map_none]
      rw [← h2, ← h1]
      cases d; rfl
    · intro e he
      rcases List.mem_cons.mp he with rfl | he
      · exact hf
      · exact i4 e he

theorem Idle.comments (r : Rules) (line : Int) (texts : List Str) :
    Idle (if r.comments then commentsAt line texts else []) := by
  intro d hd
  split at hd
  · obtain ⟨x, -, rfl⟩ := List.mem_map.mp hd
    exact ⟨rfl, rfl, by simp⟩
  · cases hd

/-- What stands at the front of the directives of a statement. -/
theorem Spec.Statement.shape {r : Rules} {ctx : List Str} {t : Tok} {toks : List Tok} {ds : List Directive} {ls : List Int} {next : List Tok}
    (h : Statement r ctx t toks (.on ds ls next)) : Idle ds ∨
      (∃ d tail, ds = d :: tail ∧ Idle tail ∧ d.block = none ∧ d.includes = none ∧ d.directive = c!"include" ∧ d.isMapBlockParameter = false ∧ ls = []) := by
  cases h with
  | comment =>
    left
    intro d hd
    split at hd
    · obtain rfl := List.mem_singleton.mp hd
      exact ⟨rfl, rfl, by simp⟩
    · cases hd
  | param =>
    left
    intro d hd
    obtain rfl := List.mem_singleton.mp hd
    exact ⟨rfl, rfl, by simp⟩
  | @simple mid args args' texts =>
    by_cases hi : t.value = c!"include"
    · exact Or.inr ⟨_, _, rfl, Idle.comments r t.line texts, rfl, rfl, hi, rfl, rfl⟩
    · left
      intro d hd
      rcases List.mem_cons.mp hd with rfl | hd
      · exact ⟨rfl, rfl, by simp [hi]⟩
      · exact Idle.comments r t.line texts d hd
  | wrongParam => left; intro d hd; cases hd
  | ignored => left; intro d hd; cases hd
  | wrongSkip => left; intro d hd; cases hd
  | wrong => left; intro d hd; cases hd

/-- An accepted statement is done when its include has been. -/
theorem Spec.Statement.accepted {env : Env} {o : ParseOptions} {configDir file : Str} (hcomb : o.combineConfigs = false) {N : List Str → Option (List Str)}
    {ctx : Ctx} {t : Tok} {toks : List Tok} {out : Outcome} (h : Statement (rulesOf o N) ctx.vals t toks out) (ps : PS) {d : Directive} (hd : out.head = some d)
    (hi : d.directive = c!"include") (hm : d.isMapBlockParameter = false) :
    (∀ e ps', doInclude env o configDir file ctx d ps = (.err e, ps') → ∃ rest, Verif.step env o configDir file ctx t toks ps = .fail (some e) rest ps') ∧
    ∀ d' ps', doInclude env o configDir file ctx d ps = (.ok d', ps') → d'.line = d.line →
      (∀ tail ls next, out = .on (d :: tail) ls next → Verif.step env o configDir file ctx t toks ps = .next (d' :: tail) next ps') ∧
      ∀ trailing next, out = .enter d trailing next → ∃ comments, Verif.step env o configDir file ctx t toks ps = .block d' comments next ps' ∧
        commentDirectives d'.line (if o.combineConfigs then file else []) comments = trailing := by
  have reads : ∀ {mid rest : List Tok} {args texts : List Str} {term : Tok}, HeadTok t → Words mid args texts → EndTok term →
      Reads o t (mid ++ term :: rest) args (if o.parseComments then texts else []) term rest := by
    intro mid rest args texts term hh hw hz
    refine ⟨hh.1, is_mark_false.mpr hh.2.1, ?_, ?_⟩
    · rw [← Bool.not_eq_true, isCommentTok_iff]
      rintro ⟨text, h⟩
      exact hh.2.2 text h
    · simpa using hw.read (endTok_iff.mp hz) rest [] []
  cases h with
  | comment =>
    simp only [Spec.Outcome.head] at hd
    split at hd
    · cases hd; simp at hi
    · cases hd
  | param => cases hd; cases hm
  | @simple mid args args' texts term rest hh hcm hig hw hz hok ha hno' =>
    have R := reads (rest := rest) hh hw hz
    have hb : d = baseStmt o file t args' := by rw [baseStmt_plain hcomb]; cases hd; rfl
    have hp : prepIf (baseStmt o file t args) = some d := by rw [hb]; exact prepIf_iff.mpr ⟨args', ha, rfl⟩
    have han := (analyze_rules file (baseStmt o file t args) term.value ctx.vals o N).mpr hok
    refine ⟨fun e ps' he => ⟨_, (StepR.inclFail _ _ _ _ _ _ _ R (mapCtx_none.mpr hcm) (contains_false_iff.mpr hig) han hp he).step_eq⟩,
      fun d' ps' he hl => ⟨fun tail ls next ho => ?_, fun trailing next ho => by cases ho⟩⟩
    rw [(StepR.simple (env := env) (configDir := configDir) (file := file) (ctx := ctx) (ps := ps) _ _ _ _ _ _ _ R (mapCtx_none.mpr hcm)
      (contains_false_iff.mpr hig) han hp he (by rw [is_mark_false]; exact fun h => hno' h.2)).step_eq, commentDirectives_at hcomb _ _ _ N, hl]
    cases hd
    cases ho
    rfl
  | @block mid args args' texts opening rest hh hcm hig hw ho hok ha =>
    have R := reads (rest := rest) hh hw (Or.inr (Or.inl ho))
    rw [← ho.2] at hok
    have hb : d = baseStmt o file t args' := by rw [baseStmt_plain hcomb]; cases hd; rfl
    have hp : prepIf (baseStmt o file t args) = some d := by rw [hb]; exact prepIf_iff.mpr ⟨args', ha, rfl⟩
    have han := (analyze_rules file (baseStmt o file t args) opening.value ctx.vals o N).mpr hok
    refine ⟨fun e ps' he => ⟨_, (StepR.inclFail _ _ _ _ _ _ _ R (mapCtx_none.mpr hcm) (contains_false_iff.mpr hig) han hp he).step_eq⟩,
      fun d' ps' he hl => ⟨fun tail ls next ho => (by cases ho), fun trailing next he2 => ?_⟩⟩
    refine ⟨if o.parseComments then texts else [], (StepR.block (env := env) (configDir := configDir) (file := file) (ctx := ctx) (ps := ps) _ _ _ _ _ _ _ R (mapCtx_none.mpr hcm)
      (contains_false_iff.mpr hig) han hp he (is_mark.mpr ho)).step_eq.trans ?_, ?_⟩
    · cases he2; rfl
    · rw [commentDirectives_at hcomb _ _ _ N, hl]
      cases hd
      cases he2
      rfl
  | _ => cases hd

theorem Spec.Statement.on_moved {env : Env} {o : ParseOptions} {configDir file : Str} (hcomb : o.combineConfigs = false) (hstop : o.stopParsingOnError = false)
    {look : List Str → Target} (hlook : Looks env o configDir look) {ctx : Ctx} {t : Tok} {toks : List Tok} {ds : List Directive} {ls : List Int}
    {next : List Tok} (h : Statement (rulesOf o (namesOf look)) ctx.vals t toks (.on ds ls next)) {K : List Ref} {capOf : Nat → Nat} {ps : PS}
    (hl : Links K capOf ps) (hc : CtxOk capOf ps.nextArr ctx) :
    ((∀ d ∈ ds, fatal look d = none) → ∃ ds' ps', Verif.step env o configDir file ctx t toks ps = .next ds' next ps' ∧
      Moved file (ls ++ missing look ds) (refsList (namesOf look) ctx.vals ds) K capOf ps capOf ps' ∧
      ∀ F, (collect K (refsList (namesOf look) ctx.vals ds)).map (·.1) <+: F → ds' = link (namesOf look) F ds) ∧
    ∀ d ∈ ds, ∀ line, fatal look d = some line → ∃ e rest ps', Verif.step env o configDir file ctx t toks ps = .fail (some e) rest ps' ∧ e.line? = line ∧
      Moved file [] [] K capOf ps capOf ps' := by
  rcases h.shape with hidle | ⟨d, tail, rfl, htail, hb, hin, hname, hmap, rfl⟩
  · have facts := hidle.facts look ctx.vals
    refine ⟨fun _ => ?_, fun d hd line hf => by rw [(facts []).2.2.2 d hd] at hf; cases hf⟩
    rw [(facts []).1, (facts []).2.1, List.append_nil]
    rcases h.step (env := env) (configDir := configDir) (file := file) hcomb (fun d hd h1 h2 =>
        absurd ⟨h1, h2⟩ (hidle d (List.mem_of_mem_head? hd)).2.2) ps with ⟨-, ps', h2, h3⟩ | ⟨h1, -⟩
    · have hn := (step_new env o configDir file ctx t toks ps).1
      rw [h2] at hn
      exact ⟨ds, ps', h2, h3.moved hn hl, fun F _ => ((facts F).2.2.1).symm⟩
    · rw [hstop] at h1; cases h1
  · have facts := htail.facts look ctx.vals
    obtain ⟨a1, a2⟩ := h.accepted (env := env) (configDir := configDir) (file := file) hcomb ps rfl hname hmap
    obtain ⟨b1, b2⟩ := doInclude_moved hlook (file := file) hname hmap hin hl hc
    have hmiss : missing look (d :: tail) = missing look [d] := by
      show missing look ([d] ++ tail) = _
      unfold missing
      rw [List.flatMap_append]
      have := (facts []).1
      unfold missing at this
      rw [this, List.append_nil]
    have hrefs : refsList (namesOf look) ctx.vals (d :: tail) = refsHere look ctx.vals d := by
      rw [refsList, (facts []).2.1, refs_dir, hb]
      simp [refsHere, refsList]
    refine ⟨fun hf => ?_, fun e he line hf => ?_⟩
    · obtain ⟨d', ps', c1, c2, c3, c4⟩ := b1 (hf d (by simp))
      have hline : d'.line = d.line := by
        rw [c4 _ (List.prefix_refl _)]
      rw [List.nil_append, hmiss, hrefs]
      refine ⟨_, ps', (a2 d' ps' c1 hline).1 _ _ _ rfl, c3, fun F hF => ?_⟩
      rw [link_cons, (facts F).2.2.1, c4 F hF, hb]
      cases d
      simp only at hb
      subst hb
      rfl
    · rcases List.mem_cons.mp he with rfl | he
      · obtain ⟨e', ps', c1, c2, c3⟩ := b2 line hf
        obtain ⟨rest, c4⟩ := a1 e' ps' c1
        exact ⟨e', rest, ps', c4, c2, c3⟩
      · rw [(facts []).2.2.2 e he] at hf; cases hf

theorem Spec.Statement.enter_moved {env : Env} {o : ParseOptions} {configDir file : Str} (hcomb : o.combineConfigs = false)
    {look : List Str → Target} (hlook : Looks env o configDir look) {ctx : Ctx} {t : Tok} {toks : List Tok} {d : Directive} {trailing : List Directive}
    {next : List Tok} (h : Statement (rulesOf o (namesOf look)) ctx.vals t toks (.enter d trailing next)) {K : List Ref} {capOf : Nat → Nat} {ps : PS}
    (hl : Links K capOf ps) (hc : CtxOk capOf ps.nextArr ctx) :
    Idle trailing ∧
    (fatal look d = none → ∃ d' comments ps', Verif.step env o configDir file ctx t toks ps = .block d' comments next ps' ∧
      commentDirectives d'.line (if o.combineConfigs then file else []) comments = trailing ∧ d'.directive = d.directive ∧
      Moved file (missing look [d]) (refsHere look ctx.vals d) K capOf ps capOf ps' ∧
      ∀ F, (collect K (refsHere look ctx.vals d)).map (·.1) <+: F → d' = { d with includes := linksOf look F d }) ∧
    ∀ line, fatal look d = some line → ∃ e rest ps', Verif.step env o configDir file ctx t toks ps = .fail (some e) rest ps' ∧ e.line? = line ∧
      Moved file [] [] K capOf ps capOf ps' := by
  have hsh : Idle trailing ∧ d.isMapBlockParameter = false ∧ d.includes = none := by
    cases h with
    | block => exact ⟨Idle.comments _ _ _, rfl, rfl⟩
  obtain ⟨htr, hmap, hin⟩ := hsh
  refine ⟨htr, ?_⟩
  by_cases hname : d.directive = c!"include"
  · obtain ⟨a1, a2⟩ := h.accepted (env := env) (configDir := configDir) (file := file) hcomb ps rfl hname hmap
    obtain ⟨b1, b2⟩ := doInclude_moved hlook (file := file) hname hmap hin hl hc
    refine ⟨fun hf => ?_, fun line hf => ?_⟩
    · obtain ⟨d', ps', c1, c2, c3, c4⟩ := b1 hf
      have hd' := c4 _ (List.prefix_refl _)
      obtain ⟨comments, e1, e2⟩ := (a2 d' ps' c1 (by rw [hd'])).2 _ _ rfl
      exact ⟨d', comments, ps', e1, e2, by rw [hd'], c3, c4⟩
    · obtain ⟨e', ps', c1, c2, c3⟩ := b2 line hf
      obtain ⟨rest, c4⟩ := a1 e' ps' c1
      exact ⟨e', rest, ps', c4, c2, c3⟩
  · obtain ⟨e1, e2⟩ := Idle.here look (d := d) (fun h => hname h.1)
    have hf : fatal look d = none := by unfold fatal; rw [e2]
    refine ⟨fun _ => ?_, fun line hf' => by rw [hf] at hf'; cases hf'⟩
    obtain ⟨args, comments, t', -, h2, h3⟩ := h.step (env := env) (configDir := configDir) (file := file) hcomb (fun d' hd' h1 _ => by
      cases hd'; exact absurd h1 hname) ps
    have hm : missing look [d] = [] := by simp [missing, e2]
    have hr : refsHere look ctx.vals d = [] := by simp [refsHere, e1]
    rw [hm, hr]
    refine ⟨d, comments, ps, h2, h3, rfl, Moved.refl hl, fun F _ => ?_⟩
    unfold linksOf
    rw [e1]
    simp only
    rw [← hin]
    cases d; rfl

/-! ## Runs -/

theorem Spec.KeepsIn.suffix {look : List Str → Target} {r : Rules} {c : List Str} {ds : List Directive} {ls : List Int} {toks rest : List Tok}
    (h : KeepsIn look r c ds ls toks rest) : rest <:+ toks := by
  induction h with
  | eof => exact List.suffix_refl _
  | stop h => exact h.suffix.trans (List.suffix_cons _ _)
  | on h _ _ ih => exact ih.trans (h.suffix.trans (List.suffix_cons _ _))
  | block h _ _ _ ihb ih => exact ih.trans (ihb.trans (h.suffix.trans (List.suffix_cons _ _)))

/-- Something is made of all tokens. -/
theorem KeepsIn_total (look : List Str → Target) (r : Rules) : ∀ (n : Nat) (ctx : List Str) (toks : List Tok), toks.length ≤ n →
    (∃ ds ls rest, KeepsIn look r ctx ds ls toks rest) ∨ ∃ ls last found, BreaksIn look r ctx ls last found toks := by
  intro n
  induction n with
  | zero =>
    intro ctx toks h
    obtain rfl := List.length_eq_zero_iff.mp (Nat.le_zero.mp h)
    exact Or.inl ⟨_, _, _, .eof⟩
  | succ n ih =>
    intro ctx toks h
    cases toks with
    | nil => exact Or.inl ⟨_, _, _, .eof⟩
    | cons t toks =>
      obtain ⟨out, hs⟩ := Statement.total r ctx t toks
      have hl := hs.suffix.length_le
      rw [List.length_cons] at h
      cases out with
      | on ds ls next =>
        by_cases hf : ∀ d ∈ ds, fatal look d = none
        · rcases ih ctx next (by simp only [Outcome.next] at hl; omega) with ⟨ds', ls', rest, h⟩ | ⟨ls', last, found, h⟩
          · exact Or.inl ⟨_, _, _, .on hs hf h⟩
          · exact Or.inr ⟨_, _, _, .on hs hf h⟩
        · push Not at hf
          obtain ⟨d, hd, hf⟩ := hf
          obtain ⟨line, hf⟩ := Option.ne_none_iff_exists'.mp hf
          exact Or.inr ⟨_, _, _, .fatal hs hd hf⟩
      | stop ls next => exact Or.inl ⟨_, _, _, .stop hs⟩
      | enter d trailing next =>
        cases hf : fatal look d with
        | some line => exact Or.inr ⟨_, _, _, .fatalBlock hs hf⟩
        | none =>
          rcases ih (enter ctx d.directive) next (by simp only [Outcome.next] at hl; omega) with ⟨b, lb, rest, h⟩ | ⟨lb, last, found, h⟩
          · have hl2 := h.suffix.length_le
            rcases ih ctx rest (by simp only [Outcome.next] at hl; omega) with ⟨ds', ls', rest, h'⟩ | ⟨ls', last, found, h'⟩
            · exact Or.inl ⟨_, _, _, .block hs hf h h'⟩
            · exact Or.inr ⟨_, _, _, .after hs hf h h'⟩
          · exact Or.inr ⟨_, _, _, .inside hs hf h⟩
      | broken line => exact Or.inr ⟨_, _, _, .broken hs⟩
      | crash => exact Or.inr ⟨_, _, _, .crash hs⟩

theorem Spec.KeepsIn.run {env : Env} {o : ParseOptions} {configDir file : Str} (hcomb : o.combineConfigs = false) (hstop : o.stopParsingOnError = false)
    {look : List Str → Target} (hlook : Looks env o configDir look)
    {c : List Str} {ds : List Directive} {ls : List Int} {toks rest : List Tok} (h : KeepsIn look (rulesOf o (namesOf look)) c ds ls toks rest) :
    ∀ (ctx : Ctx) (ps : PS) (K : List Ref) (capOf : Nat → Nat), ctx.vals = c → Links K capOf ps → CtxOk capOf ps.nextArr ctx →
    ∃ ds' ps' capOf', RunOk env o configDir file ctx toks ps ds' rest ps' ∧ Moved file ls (refsList (namesOf look) c ds) K capOf ps capOf' ps' ∧
      ∀ F, (collect K (refsList (namesOf look) c ds)).map (·.1) <+: F → ds' = link (namesOf look) F ds := by
  induction h with
  | eof => intro ctx ps K capOf _ hl _; exact ⟨[], ps, capOf, .eof ctx ps, Moved.refl hl, fun F _ => rfl⟩
  | @stop c t ls toks rest hs =>
    intro ctx ps K capOf hv hl _
    subst hv
    rcases hs.step (env := env) (configDir := configDir) (file := file) hcomb (fun d hd => by cases hd) ps with ⟨-, ps', h2, h3⟩ | ⟨h1, -⟩
    · have hn := (step_new env o configDir file ctx t toks ps).1
      rw [h2] at hn
      exact ⟨[], ps', capOf, .stop _ _ _ _ _ _ h2, h3.moved hn hl, fun F _ => rfl⟩
    · rw [hstop] at h1; cases h1
  | @on c t ds ls ds' ls' toks toks' rest hs hf hk ih =>
    intro ctx ps K capOf hv hl hc
    subst hv
    obtain ⟨d1, ps1, a1, a2, a3⟩ := (hs.on_moved (env := env) (configDir := configDir) (file := file) hcomb hstop hlook hl hc).1 hf
    obtain ⟨d2, ps2, c2, b1, b2, b3⟩ := ih ctx ps1 _ _ rfl a2.links (hc.mono a2.caps a2.arr)
    rw [refsList_append]
    refine ⟨d1 ++ d2, ps2, c2, .next _ _ _ _ _ _ _ _ _ _ a1 b1, a2.trans b2, fun F hF => ?_⟩
    rw [collect_append] at hF
    rw [link_append, b3 F hF, a3 F (((collect_prefix _ _).map _).trans hF)]
  | @block c t d trailing b lb ds ls toks toks' toks2 rest hs hf hk hk2 ihb ih =>
    intro ctx ps K capOf hv hl hc
    subst hv
    obtain ⟨htr, h1, -⟩ := hs.enter_moved (env := env) (configDir := configDir) (file := file) hcomb hlook hl hc
    obtain ⟨d', comments, ps1, a1, a2, a3, a4, a5⟩ := h1 hf
    obtain ⟨c1, e1, e2⟩ := enterBlockCtx_moved (file := file) a4.links (hc.mono a4.caps a4.arr) d'
    have m1 := a4.trans e1
    rw [List.append_nil, List.append_nil] at m1
    have hv : (enterBlockCtx d' ctx ps1).1.vals = enter ctx.vals d.directive := by rw [enterBlockCtx_vals, a3]
    obtain ⟨b', ps2, c2, i1, i2, i3⟩ := ihb _ _ _ _ hv m1.links e2
    have m2 := m1.trans i2
    obtain ⟨ds', ps3, c3, j1, j2, j3⟩ := ih ctx ps2 _ _ rfl m2.links (hc.mono m2.caps m2.arr)
    have hrefs : refsList (namesOf look) ctx.vals ({ d with block := some b } :: (trailing ++ ds)) =
        refsHere look ctx.vals d ++ refsList (namesOf look) (enter ctx.vals d.directive) b ++ refsList (namesOf look) ctx.vals ds := by
      rw [refsList, refsList_append, (htr.facts look ctx.vals []).2.1, List.nil_append, refs_dir]
      rfl
    rw [hrefs]
    have hrun := RunOk.block _ _ _ _ _ _ _ _ _ _ _ _ _ _ a1 i1 j1
    rw [a2] at hrun
    refine ⟨_, ps3, c3, hrun, m2.trans j2, fun F hF => ?_⟩
    rw [collect_append] at hF
    have f1 := ((collect_prefix _ _).map (·.1)).trans hF
    rw [collect_append] at f1
    have f0 := ((collect_prefix _ _).map (·.1)).trans f1
    rw [link_cons, link_append, (htr.facts look ctx.vals F).2.2.1]
    rw [j3 F hF, i3 F f1, a5 F f0]
    rfl

theorem Spec.BreaksIn.run {env : Env} {o : ParseOptions} {configDir file : Str} (hcomb : o.combineConfigs = false) (hstop : o.stopParsingOnError = false)
    {look : List Str → Target} (hlook : Looks env o configDir look)
    {c : List Str} {ls : List Int} {last : Option (Option Int)} {found : List Ref} {toks : List Tok}
    (h : BreaksIn look (rulesOf o (namesOf look)) c ls last found toks) :
    ∀ (ctx : Ctx) (ps : PS) (K : List Ref) (capOf : Nat → Nat), ctx.vals = c → Links K capOf ps → CtxOk capOf ps.nextArr ctx →
    ∃ e toks' ps' capOf', RunFail env o configDir file ctx toks ps e toks' ps' ∧ EndsBy e last ∧ Moved file ls found K capOf ps capOf' ps' := by
  induction h with
  | @broken c t line toks hs =>
    intro ctx ps K capOf hv hl _
    subst hv
    obtain ⟨e, toks', h1, h2⟩ := hs.step (env := env) (configDir := configDir) (file := file) hcomb (fun d hd => by cases hd) ps
    exact ⟨_, _, _, capOf, .fail _ _ _ _ _ _ _ h1, ⟨e, rfl, h2⟩, Moved.refl hl⟩
  | @crash c t toks hs =>
    intro ctx ps K capOf hv hl _
    subst hv
    obtain ⟨toks', h1⟩ := hs.step (env := env) (configDir := configDir) (file := file) hcomb (fun d hd => by cases hd) ps
    exact ⟨_, _, _, capOf, .fail _ _ _ _ _ _ _ h1, rfl, Moved.refl hl⟩
  | @fatal c t d ds ls line toks toks' hs hd hf =>
    intro ctx ps K capOf hv hl hc
    subst hv
    obtain ⟨e, rest, ps', a1, a2, a3⟩ := (hs.on_moved (env := env) (configDir := configDir) (file := file) hcomb hstop hlook hl hc).2 d hd line hf
    exact ⟨_, _, _, capOf, .fail _ _ _ _ _ _ _ a1, ⟨e, rfl, a2⟩, a3⟩
  | @fatalBlock c t d trailing line toks toks' hs hf =>
    intro ctx ps K capOf hv hl hc
    subst hv
    obtain ⟨e, rest, ps', a1, a2, a3⟩ := (hs.enter_moved (env := env) (configDir := configDir) (file := file) hcomb hlook hl hc).2.2 line hf
    exact ⟨_, _, _, capOf, .fail _ _ _ _ _ _ _ a1, ⟨e, rfl, a2⟩, a3⟩
  | @on c t ds ls ls' last found toks toks' hs hf hk ih =>
    intro ctx ps K capOf hv hl hc
    subst hv
    obtain ⟨d1, ps1, a1, a2, a3⟩ := (hs.on_moved (env := env) (configDir := configDir) (file := file) hcomb hstop hlook hl hc).1 hf
    obtain ⟨e, toks2, ps2, c2, b1, b2, b3⟩ := ih ctx ps1 _ _ rfl a2.links (hc.mono a2.caps a2.arr)
    exact ⟨e, toks2, ps2, c2, .next _ _ _ _ _ _ _ _ _ _ a1 b1, b2, a2.trans b3⟩
  | @inside c t d trailing lb last found toks toks' hs hf hk ih =>
    intro ctx ps K capOf hv hl hc
    subst hv
    obtain ⟨htr, h1, -⟩ := hs.enter_moved (env := env) (configDir := configDir) (file := file) hcomb hlook hl hc
    obtain ⟨d', comments, ps1, a1, a2, a3, a4, a5⟩ := h1 hf
    obtain ⟨c1, e1, e2⟩ := enterBlockCtx_moved (file := file) a4.links (hc.mono a4.caps a4.arr) d'
    have m1 := a4.trans e1
    rw [List.append_nil, List.append_nil] at m1
    have hv : (enterBlockCtx d' ctx ps1).1.vals = enter ctx.vals d.directive := by rw [enterBlockCtx_vals, a3]
    obtain ⟨e, toks2, ps2, c2, i1, i2, i3⟩ := ih _ _ _ _ hv m1.links e2
    have m2 := m1.trans i3
    exact ⟨e, toks2, ps2, c2, .inside _ _ _ _ _ _ _ _ _ _ _ a1 i1, i2, m2⟩
  | @after c t d trailing b lb ls last found toks toks' toks2 hs hf hk hk2 ih =>
    intro ctx ps K capOf hv hl hc
    subst hv
    obtain ⟨htr, h1, -⟩ := hs.enter_moved (env := env) (configDir := configDir) (file := file) hcomb hlook hl hc
    obtain ⟨d', comments, ps1, a1, a2, a3, a4, a5⟩ := h1 hf
    obtain ⟨c1, e1, e2⟩ := enterBlockCtx_moved (file := file) a4.links (hc.mono a4.caps a4.arr) d'
    have m1 := a4.trans e1
    rw [List.append_nil, List.append_nil] at m1
    have hv : (enterBlockCtx d' ctx ps1).1.vals = enter ctx.vals d.directive := by rw [enterBlockCtx_vals, a3]
    obtain ⟨b', ps2, c2, i1, i2, i3⟩ := hk.run hcomb hstop hlook _ _ _ _ hv m1.links e2
    have m2 := m1.trans i2
    obtain ⟨e, toks3, ps3, c3, j1, j2, j3⟩ := ih ctx ps2 _ _ rfl m2.links (hc.mono m2.caps m2.arr)
    exact ⟨e, toks3, ps3, c3, .after _ _ _ _ _ _ _ _ _ _ _ _ _ _ a1 i1 j1, j2, m2.trans j3⟩

/-! ## The files -/

/-- What include directives come to in a file system: with SingleFile they come to nothing. -/
def diskLook (env : Env) (o : ParseOptions) (configDir : Str) (text : Str → Option FileData) (matching : Str → Option (List Str)) : List Str → Target :=
  if o.singleFile then fun _ => .files [] else lookIn env.isAbs env.join configDir (fun f => (text f).isSome) matching

theorem ReadOnly.looks {env : Env} {text : Str → Option FileData} {matching : Str → Option (List Str)} (h : ReadOnly env text matching)
    (hglob : ∀ n p e, env.glob n p = .error e → e.line? = none) {o : ParseOptions} (hstop : o.stopParsingOnError = false) (configDir : Str) :
    Looks env o configDir (diskLook env o configDir text matching) := by
  cases ho : o.singleFile with
  | true =>
    have hl : diskLook env o configDir text matching = fun _ => .files [] := by unfold diskLook; rw [ho]; rfl
    rw [hl]
    constructor
    · intro file ctx stmt ps l _ he
      cases he
      exact ⟨ps.globs, ps.opens, by unfold doInclude; rw [ho]; rfl⟩
    all_goals (intro file ctx stmt ps _ he; cases he)
  | false =>
    have hl : diskLook env o configDir text matching = lookIn env.isAbs env.join configDir (fun f => (text f).isSome) matching := by
      unfold diskLook; rw [ho]; rfl
    rw [hl]
    have hinc : ∀ stmt : Directive, stmt.directive = c!"include" → (!o.singleFile && stmt.directive == c!"include") = true := fun stmt hd => by simp [ho, hd]
    have hpath : ∀ a, (if !env.isAbs a then env.join configDir a else a) = if env.isAbs a then a else env.join configDir a := by
      intro a; cases env.isAbs a <;> rfl
    have key : ∀ file ctx (stmt : Directive) ps, stmt.directive = c!"include" →
        match lookIn env.isAbs env.join configDir (fun f => (text f).isSome) matching stmt.args with
        | .files l => ∃ g n, doInclude env o configDir file ctx stmt ps =
            (.ok (addIncludes file ctx stmt { ps with globs := g, opens := n } l).1, (addIncludes file ctx stmt { ps with globs := g, opens := n } l).2)
        | .missing => ∃ g n e, doInclude env o configDir file ctx stmt ps = (.ok stmt, handleError o file { ps with globs := g, opens := n } (.parse e)) ∧
            e.line = some stmt.line
        | .noName => ∃ g n e, doInclude env o configDir file ctx stmt ps = (.err e, { ps with globs := g, opens := n }) ∧ e.line? = some stmt.line
        | .badPattern => ∃ g n e, doInclude env o configDir file ctx stmt ps = (.err e, { ps with globs := g, opens := n }) ∧ e.line? = none := by
      intro file ctx stmt ps hd
      unfold doInclude
      rw [if_pos (hinc stmt hd)]
      cases hargs : stmt.args with
      | nil => exact ⟨ps.globs, ps.opens, _, rfl, rfl⟩
      | cons a as =>
        simp only [lookIn, hpath]
        generalize (if env.isAbs a then a else env.join configDir a) = path
        by_cases hm : hasMagic path = true
        · rw [if_pos ((hasMagic_iff path).mp hm)]
          simp only [hm, if_true]
          cases hf : matching path with
          | some l =>
            obtain ⟨l', h1, h2, h3⟩ := h.found ps.globs _ _ hf
            simp only [h1]
            refine ⟨ps.globs + 1, ps.opens, ?_⟩
            rw [← sortStrings_perm h2, sortStrings_sorted h3]
          | none =>
            obtain ⟨e, h1⟩ := h.notFound ps.globs _ hf
            simp only [h1]
            exact ⟨ps.globs + 1, ps.opens, e, rfl, hglob _ _ _ h1⟩
        · rw [if_neg (fun h => hm ((hasMagic_iff path).mpr h))]
          simp only [hm, Bool.false_eq_true, if_false]
          rcases Option.eq_none_or_eq_some (text path) with hf | ⟨d, hf⟩
          · obtain ⟨e, h1⟩ := h.noFile ps.opens _ hf
            simp only [hf, h1, Option.isSome_none, Bool.false_eq_true, if_false, hstop, Bool.not_false, if_true]
            exact ⟨ps.globs, ps.opens + 1, _, rfl, rfl⟩
          · simp only [hf, h.isFile ps.opens _ _ hf, Option.isSome_some, if_true]
            exact ⟨ps.globs, ps.opens + 1, rfl⟩
    constructor
    · intro file ctx stmt ps l hd he
      have := key file ctx stmt ps hd
      rw [he] at this; exact this
    · intro file ctx stmt ps hd he
      have := key file ctx stmt ps hd
      rw [he] at this; exact this
    · intro file ctx stmt ps hd he
      have := key file ctx stmt ps hd
      rw [he] at this; exact this
    · intro file ctx stmt ps hd he
      have := key file ctx stmt ps hd
      rw [he] at this; exact this

/-- The config of a file, as far as it is described. -/
def configView (c : Config) : Str × Str × List Directive × List (Option Int) := (c.file, c.status, c.parsed, c.errors.map (·.line))

/-- The same for a file that was read. -/
def readView (N : List Str → Option (List Str)) (F : List Str) (f : ReadFile) : Str × Str × List Directive × List (Option Int) :=
  (f.name, if f.lines = [] then c!"ok" else c!"failed", f.tree N F, f.lines)

theorem next_file {known : List Ref} {capOf : Nat → Nat} {ps : PS} (hl : Links known capOf ps) {done : List Str} (ht : Table done ps) {f : Str} {c : List Str}
    (hk : known[done.length]? = some (f, c)) (hf : Fresh c.length) : ∃ incl rest, ps.includes = incl :: rest ∧ incl.path = f ∧ incl.ctx.vals = c := by
  have hp := hl.paths ht
  have h1 : (done ++ ps.paths)[done.length]? = some f := by rw [hp, List.getElem?_map, hk]; rfl
  rw [List.getElem?_append_right (Nat.le_refl _), Nat.sub_self] at h1
  cases hin : ps.includes with
  | nil => rw [PS.paths, hin] at h1; cases h1
  | cons incl rest =>
    rw [PS.paths, hin] at h1
    have hname : incl.path = f := by simpa using h1
    exact ⟨incl, rest, rfl, hname, hl.ctx (incl := incl) (by rw [hin]; simp) (List.prefix_refl _) hl.nodup (by rw [hname]; exact List.mem_of_getElem? hk) hf⟩

theorem edge_step {file : Str} {rs : List Ref} {ps ps' : PS} (h : ∀ u, outEdges ps'.includeEdges u = outEdges ps.includeEdges u ++ if u = file then rs.map (·.1) else [])
    (u v : Str) : ps'.Edge u v ↔ ps.Edge u v ∨ file = u ∧ v ∈ rs.map (·.1) := by
  unfold PS.Edge
  rw [h, List.mem_append]
  by_cases hu : u = file
  · rw [if_pos hu]
    simp [hu]
  · rw [if_neg hu]
    simp [Ne.symm hu]

theorem parseFiles_kept {env : Env} {o : ParseOptions} {configDir : Str} {ps : PS} {incl : FileCtx} {rest : List FileCtx} {data : FileData} {ds : List Directive}
    {toks' : List Tok} {ps1 : PS} (hin : ps.includes = incl :: rest) (hop : env.openFile ps.opens incl.path = .ok data)
    (hr : RunOk env o configDir incl.path incl.ctx (fileToks o data) (startFile ps rest) ds toks' ps1) (fuel : Nat) (configs : List Config) :
    parseFiles env o configDir (fuel + 1) ps configs = parseFiles env o configDir fuel ps1 (configs ++ [fileConfig incl.path ps1 ds]) := by
  have := hr.parse_eq ((fileToks o data).length + 1) [] (by omega)
  unfold fileToks startFile at this
  rw [parseFiles]
  simp only [hin, hop, this]
  rfl

theorem parseFiles_broken {env : Env} {o : ParseOptions} {configDir : Str} {ps : PS} {incl : FileCtx} {rest : List FileCtx} {data : FileData} {e : GoErr}
    {toks' : List Tok} {ps1 : PS} (hin : ps.includes = incl :: rest) (hop : env.openFile ps.opens incl.path = .ok data)
    (hr : RunFail env o configDir incl.path incl.ctx (fileToks o data) (startFile ps rest) (some e) toks' ps1) (hs : o.stopParsingOnError = false) (fuel : Nat)
    (configs : List Config) : parseFiles env o configDir (fuel + 1) ps configs =
      parseFiles env o configDir fuel (handleError o incl.path ps1 e) (configs ++ [fileConfig incl.path (handleError o incl.path ps1 e) []]) := by
  have := hr.parse_eq ((fileToks o data).length + 1) [] (by omega)
  unfold fileToks startFile at this
  rw [parseFiles]
  simp only [hin, hop, this, failRes, hs, Bool.false_eq_true, if_false]
  rfl

/-- What the worklist loop makes of the files. -/
def Result (env : Env) (o : ParseOptions) (configDir : Str) (N : List Str → Option (List Str)) (known : List Ref) (fs : List ReadFile) (ps : PS) : End → Prop
  | .done => ∃ cs ps', FilesOk env o configDir ps cs ps' ∧
      (∀ F, (collect known (fs.flatMap (·.refs N))).map (·.1) <+: F → cs.map configView = fs.map (readView N F)) ∧
      ps'.payErrors.map (fun e => (e.file, e.line)) = ps.payErrors.map (fun e => (e.file, e.line)) ++ fs.flatMap (fun f => f.lines.map (f.name, ·)) ∧
      (ps'.payStatus = if fs.flatMap (·.lines) = [] then ps.payStatus else c!"failed") ∧
      (collect known (fs.flatMap (·.refs N))).map (·.1) = ps'.included.map (·.1) ∧
      ∀ u v, ps'.Edge u v ↔ ps.Edge u v ∨ ∃ f ∈ fs, f.name = u ∧ v ∈ (f.refs N).map (·.1)
  | .noFile f => ∃ e n, (∀ fuel configs, fs.length < fuel → (parseFiles env o configDir fuel ps configs).1 = .err e ∧
      (parseFiles env o configDir fuel ps configs).2.payErrors.map (fun e => (e.file, e.line)) =
        ps.payErrors.map (fun e => (e.file, e.line)) ++ errorLines fs (.noFile f)) ∧ env.openFile n f = .error e
  | .crash f c ls => ∀ fuel configs, fs.length < fuel → (parseFiles env o configDir fuel ps configs).1 = .panic ∧
      (parseFiles env o configDir fuel ps configs).2.payErrors.map (fun e => (e.file, e.line)) =
        ps.payErrors.map (fun e => (e.file, e.line)) ++ errorLines fs (.crash f c ls)

theorem Result.cons {env : Env} {o : ParseOptions} {configDir : Str} {N : List Str → Option (List Str)} {known : List Ref} {f : ReadFile} {fs : List ReadFile}
    {ps ps1 : PS} {incl : FileCtx} {rest : List FileCtx} {ds : List Directive} (hname : incl.path = f.name)
    (hok : ∀ cs ps', FilesOk env o configDir ps1 cs ps' → FilesOk env o configDir ps (fileConfig incl.path ps1 ds :: cs) ps')
    (hfail : ∀ fuel configs, parseFiles env o configDir (fuel + 1) ps configs =
      parseFiles env o configDir fuel ps1 (configs ++ [fileConfig incl.path ps1 ds]))
    (htree : ∀ F, (collect known (f.refs N)).map (·.1) <+: F → ds = f.tree N F)
    (hm : Marks incl.path f.lines (startFile ps rest) ps1)
    (he : ∀ u, outEdges ps1.includeEdges u = outEdges ps.includeEdges u ++ if u = incl.path then (f.refs N).map (·.1) else [])
    {e : End} (h : Result env o configDir N (collect known (f.refs N)) fs ps1 e) : Result env o configDir N known (f :: fs) ps e := by
  cases e with
  | done =>
    obtain ⟨cs, ps', h1, h2, h3, h4, h6, h5⟩ := h
    have hc : collect known ((f :: fs).flatMap (·.refs N)) = collect (collect known (f.refs N)) (fs.flatMap (·.refs N)) := by
      rw [List.flatMap_cons, collect_append]
    refine ⟨_, ps', hok _ _ h1, fun F hF => ?_, ?_, ?_, by rw [hc]; exact h6, fun u v => ?_⟩
    · rw [hc] at hF
      rw [List.map_cons, List.map_cons, h2 F hF]
      congr 1
      have h7 := hm.cfg
      have h8 := hm.cfgStatus
      have e1 : (startFile ps rest).cfgErrors = [] := rfl
      have e2 : (startFile ps rest).cfgStatus = c!"ok" := rfl
      rw [e1] at h7
      rw [e2] at h8
      unfold configView readView fileConfig
      simp only [h8, hname, htree F (((collect_prefix _ _).map _).trans hF)]
      rw [h7]
      rfl
    · rw [h3, hm.pay, hname]
      show ps.payErrors.map _ ++ _ ++ _ = _
      simp
    · rw [h4, hm.payStatus]
      show (if _ then (if _ then ps.payStatus else _) else _) = _
      by_cases a : f.lines = [] <;> by_cases b : fs.flatMap (·.lines) = [] <;> simp [a, b]
    · rw [h5, edge_step he]
      constructor
      · rintro ((h | ⟨h, h'⟩) | ⟨g, hg, h, h'⟩)
        exacts [Or.inl h, Or.inr ⟨f, by simp, by rw [← hname, h], h'⟩, Or.inr ⟨g, by simp [hg], h, h'⟩]
      · rintro (h | ⟨g, hg, h, h'⟩)
        · exact Or.inl (Or.inl h)
        · rcases List.mem_cons.mp hg with rfl | hg
          exacts [Or.inl (Or.inr ⟨by rw [hname, h], h'⟩), Or.inr ⟨g, hg, h, h'⟩]
  | noFile g =>
    obtain ⟨e, n, h1, h2⟩ := h
    refine ⟨e, n, fun fuel configs hf => ?_, h2⟩
    obtain ⟨fuel, rfl⟩ : ∃ k, fuel = k + 1 := ⟨fuel - 1, by omega⟩
    rw [hfail]
    obtain ⟨h3, h4⟩ := h1 fuel (configs ++ [fileConfig incl.path ps1 ds]) (by simp at hf; omega)
    exact ⟨h3, by rw [h4, hm.pay, hname]; simp [startFile, errorLines]⟩
  | crash g c ls =>
    intro fuel configs hf
    obtain ⟨fuel, rfl⟩ : ∃ k, fuel = k + 1 := ⟨fuel - 1, by omega⟩
    rw [hfail]
    obtain ⟨h3, h4⟩ := h fuel (configs ++ [fileConfig incl.path ps1 ds]) (by simp at hf; omega)
    exact ⟨h3, by rw [h4, hm.pay, hname]; simp [startFile, errorLines]⟩

theorem Spec.Work.run {env : Env} {text : Str → Option FileData} {matching : Str → Option (List Str)} (hd : ReadOnly env text matching) {o : ParseOptions}
    (hcomb : o.combineConfigs = false) (hstop : o.stopParsingOnError = false) {configDir : Str} {look : List Str → Target} (hlook : Looks env o configDir look)
    {known : List Ref} {i : Nat} {fs : List ReadFile} {e : End}
    (h : Work (fun f => (text f).map (fileToks o)) look (rulesOf o (namesOf look)) known i fs e) :
    ∀ (done : List Str) (ps : PS) (capOf : Nat → Nat), done.length = i → Table done ps → Links known capOf ps → (∀ f ∈ fs, Fresh f.ctx.length) →
      (∀ f c ls, e = .crash f c ls → Fresh c.length) → Result env o configDir (namesOf look) known fs ps e := by
  induction h with
  | @done known i hi =>
    intro done ps capOf hlen ht hl _ _
    have hp := hl.paths ht
    have hn : ps.includes = [] := by
      have := congrArg List.length hp
      rw [List.length_append, List.length_map] at this
      have : ps.paths.length = 0 := by omega
      simpa [PS.paths] using this
    exact ⟨[], ps, .nil ps hn, fun F _ => rfl, by simp, rfl, by rw [hl.table, indexed_keys]; rfl, fun u v => by simp⟩
  | @noFile known i f c hk htx =>
    intro done ps capOf hlen ht hl _ _
    subst hlen
    have hp := hl.paths ht
    have h1 : (done ++ ps.paths)[done.length]? = some f := by rw [hp, List.getElem?_map, hk]; rfl
    rw [List.getElem?_append_right (Nat.le_refl _), Nat.sub_self] at h1
    cases hin : ps.includes with
    | nil => rw [PS.paths, hin] at h1; cases h1
    | cons incl rest =>
      rw [PS.paths, hin] at h1
      obtain rfl : incl.path = f := by simpa using h1
      rw [Option.map_eq_none_iff] at htx
      obtain ⟨e, he⟩ := hd.noFile ps.opens _ htx
      refine ⟨e, ps.opens, fun fuel configs hf => ?_, he⟩
      obtain ⟨fuel, rfl⟩ : ∃ k, fuel = k + 1 := ⟨fuel - 1, by omega⟩
      unfold parseFiles
      simp only [hin, he, errorLines, List.flatMap_nil, List.append_nil, and_self]
  | @crash known i f c ts ls found hk htx hb =>
    intro done ps capOf hlen ht hl _ hfr
    subst hlen
    obtain ⟨incl, rest, hin, rfl, hctx⟩ := next_file hl ht hk (hfr _ _ _ rfl)
    obtain ⟨data, hdata, rfl⟩ := Option.map_eq_some_iff.mp htx
    obtain ⟨hl1, hc1⟩ := hl.start hin
    obtain ⟨e, toks', ps1, c1, r1, rfl, r3⟩ := hb.run (env := env) (configDir := configDir) (file := incl.path) hcomb hstop hlook incl.ctx (startFile ps rest) known capOf
      hctx hl1 hc1
    intro fuel configs hf
    obtain ⟨fuel, rfl⟩ : ∃ k, fuel = k + 1 := ⟨fuel - 1, by omega⟩
    have hp := r1.parse_eq ((fileToks o data).length + 1) [] (by omega)
    unfold fileToks startFile at hp
    unfold parseFiles
    simp only [hin, hd.isFile ps.opens _ _ hdata, hp, failRes]
    refine ⟨trivial, ?_⟩
    rw [r3.marks.pay]
    simp [startFile, errorLines]
  | @kept known i f c ts tree ls rest' fs e hk htx hkp hw ih =>
    intro done ps capOf hlen ht hl hfs hfr
    subst hlen
    obtain ⟨incl, rest, hin, hname, hctx⟩ := next_file hl ht hk (hfs _ (List.mem_cons_self ..))
    subst hname
    obtain ⟨data, hdata, rfl⟩ := Option.map_eq_some_iff.mp htx
    have hop := hd.isFile ps.opens _ _ hdata
    obtain ⟨hl1, hc1⟩ := hl.start hin
    obtain ⟨ds', ps1, c1, r1, r2, r3⟩ := hkp.run (env := env) (configDir := configDir) (file := incl.path) hcomb hstop hlook incl.ctx (startFile ps rest) known capOf
      hctx hl1 hc1
    have ht1 := (table_rel _ o incl.path).runOk r1 (ht.start hin)
    have := ih (done ++ [incl.path]) ps1 c1 (by simp) ht1 r2.links (fun f hf => hfs f (List.mem_cons_of_mem _ hf)) hfr
    exact Result.cons (f := ⟨incl.path, c, .kept tree ls⟩) (rest := rest) (ds := ds') rfl (fun cs ps' hx => .ok _ _ _ _ _ _ _ _ _ hin hop r1 hx)
      (parseFiles_kept hin hop r1) r3 r2.marks r2.edges this
  | @broken known i f c ts ls last found fs e hk htx hb hw ih =>
    intro done ps capOf hlen ht hl hfs hfr
    subst hlen
    obtain ⟨incl, rest, hin, hname, hctx⟩ := next_file hl ht hk (hfs _ (List.mem_cons_self ..))
    subst hname
    obtain ⟨data, hdata, rfl⟩ := Option.map_eq_some_iff.mp htx
    have hop := hd.isFile ps.opens _ _ hdata
    obtain ⟨hl1, hc1⟩ := hl.start hin
    obtain ⟨e', toks', ps1, c1, r1, ⟨e1, rfl, rfl⟩, r3⟩ := hb.run (env := env) (configDir := configDir) (file := incl.path) hcomb hstop hlook incl.ctx
      (startFile ps rest) known capOf hctx hl1 hc1
    have ht1 := (table_rel _ o incl.path).err _ e1 ((table_rel _ o incl.path).runFail r1 (ht.start hin))
    have hl2 : Links (collect known found) c1 (handleError o incl.path ps1 e1) := ⟨r3.links.1, r3.links.2, r3.links.3⟩
    have := ih (done ++ [incl.path]) (handleError o incl.path ps1 e1) c1 (by simp) ht1 hl2 (fun f hf => hfs f (List.mem_cons_of_mem _ hf)) hfr
    exact Result.cons (f := ⟨incl.path, c, .broken ls e1.line? found⟩) (rest := rest) (ds := []) rfl
      (fun cs ps' hx => .bad _ _ _ _ _ _ _ _ _ hin hop r1 hstop hx)
      (parseFiles_broken hin hop r1 hstop) (fun F _ => rfl) (r3.marks.trans (Marks.one o incl.path ps1 e1)) r3.edges this

/-- If there are no more files than `F`, something is made of them. -/
theorem Work_total {toks : Str → Option (List Tok)} (look : List Str → Target) (r : Rules) {F : List Str} (hF : ∀ f, toks f ≠ none → f ∈ F) :
    ∀ (n : Nat) (known : List Ref) (i : Nat), F.length - i ≤ n → i ≤ known.length → (known.map (·.1)).Nodup → (∀ f ∈ (known.map (·.1)).take i, f ∈ F) →
      ∃ fs e, Work toks look r known i fs e ∧ fs.length + i ≤ F.length := by
  have hle : ∀ (known : List Ref) (i : Nat), i ≤ known.length → (known.map (·.1)).Nodup → (∀ f ∈ (known.map (·.1)).take i, f ∈ F) → i ≤ F.length := by
    intro known i hi hnd hsub
    have := List.Subperm.length_le ((hnd.sublist (List.take_sublist i _)).subperm hsub)
    rw [List.length_take, List.length_map] at this
    omega
  intro n
  induction n with
  | zero =>
    intro known i hn hi hnd hsub
    cases hk : known[i]? with
    | none => exact ⟨[], .done, .done (List.getElem?_eq_none_iff.mp hk), by simpa using hle known i hi hnd hsub⟩
    | some fc =>
      obtain ⟨f, c⟩ := fc
      cases ht : toks f with
      | none => exact ⟨[], .noFile f, .noFile hk ht, by simpa using hle known i hi hnd hsub⟩
      | some ts =>
        exfalso
        obtain ⟨hlt, hki⟩ := List.getElem?_eq_some_iff.mp hk
        have := hle known (i + 1) hlt hnd (by
          intro g hg
          rw [List.take_succ_eq_append_getElem (by simpa using hlt), List.mem_append] at hg
          rcases hg with hg | hg
          · exact hsub g hg
          · rw [List.getElem_map, hki, List.mem_singleton] at hg
            rw [hg]; exact hF f (by rw [ht]; simp))
        omega
  | succ n ih =>
    intro known i hn hi hnd hsub
    cases hk : known[i]? with
    | none => exact ⟨[], .done, .done (List.getElem?_eq_none_iff.mp hk), by simpa using hle known i hi hnd hsub⟩
    | some fc =>
      obtain ⟨f, c⟩ := fc
      cases ht : toks f with
      | none => exact ⟨[], .noFile f, .noFile hk ht, by simpa using hle known i hi hnd hsub⟩
      | some ts =>
        obtain ⟨hlt, hki⟩ := List.getElem?_eq_some_iff.mp hk
        have hnext : ∀ rs, ∃ fs e, Work toks look r (collect known rs) (i + 1) fs e ∧ fs.length + (i + 1) ≤ F.length := by
          intro rs
          have hpre := collect_prefix known rs
          refine ih _ _ (by omega) (Nat.le_trans hlt hpre.length_le) (collect_nodup _ hnd) ?_
          intro g hg
          have htk : ((collect known rs).map (·.1)).take (i + 1) = (known.map (·.1)).take (i + 1) := by
            obtain ⟨x, hx⟩ := hpre
            rw [← hx, List.map_append, List.take_append_of_le_length (by rw [List.length_map]; exact hlt)]
          rw [htk, List.take_succ_eq_append_getElem (by simpa using hlt), List.mem_append] at hg
          rcases hg with hg | hg
          · exact hsub g hg
          · rw [List.getElem_map, hki, List.mem_singleton] at hg
            rw [hg]; exact hF f (by rw [ht]; simp)
        rcases KeepsIn_total look r ts.length c ts (Nat.le_refl _) with ⟨ds, ls, rest, h⟩ | ⟨ls, last, found, h⟩
        · obtain ⟨fs, e, h1, h2⟩ := hnext (refsList (namesOf look) c ds)
          exact ⟨_, e, .kept hk ht h h1, by simp; omega⟩
        · cases last with
          | none => exact ⟨[], _, .crash hk ht h, by simpa using hle known i hi hnd hsub⟩
          | some last =>
            obtain ⟨fs, e, h1, h2⟩ := hnext found
            exact ⟨_, e, .broken hk ht h h1, by simp; omega⟩

end Verif
