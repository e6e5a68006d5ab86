import Verif.Proofs.Grammar
import Verif.Props.Context
import Verif.Props.EnvProps
/-!
# Projects and the worklist of the parser
-/
namespace Verif
open Spec

/-! ## Lists of references -/

theorem collect_nil (k : List Ref) : collect k [] = k := rfl

theorem collect_cons (k : List Ref) (r : Ref) (l : List Ref) :
    collect k (r :: l) = collect (if r.1 ∈ k.map (·.1) then k else k ++ [r]) l := rfl

theorem collect_append (k a b : List Ref) : collect k (a ++ b) = collect (collect k a) b := by
  unfold collect; rw [List.foldl_append]

theorem collect_prefix (k l : List Ref) : k <+: collect k l := by
  induction l generalizing k with
  | nil => exact List.prefix_refl k
  | cons r l ih =>
    rw [collect_cons]
    split
    · exact ih k
    · exact (List.prefix_append k [r]).trans (ih _)

theorem collect_nodup {k : List Ref} (l : List Ref) (h : (k.map (·.1)).Nodup) : ((collect k l).map (·.1)).Nodup := by
  induction l generalizing k with
  | nil => exact h
  | cons r l ih =>
    rw [collect_cons]
    split
    · exact ih h
    · rename_i hn
      refine ih ?_
      rw [List.map_append, List.nodup_append]
      refine ⟨h, by simp, ?_⟩
      rintro a ha b hb rfl
      obtain rfl : a = r.1 := by simpa using hb
      exact hn ha

theorem mem_collect {k l : List Ref} {f : Str} : f ∈ (collect k l).map (·.1) ↔ f ∈ k.map (·.1) ∨ f ∈ l.map (·.1) := by
  induction l generalizing k with
  | nil => simp [collect_nil]
  | cons r l ih =>
    rw [collect_cons, ih]
    split
    · rename_i h
      rw [List.map_cons, List.mem_cons]
      constructor
      · rintro (h | h); exacts [Or.inl h, Or.inr (Or.inr h)]
      · rintro (h' | rfl | h'); exacts [Or.inl h', Or.inl h, Or.inr h']
    · simp only [List.map_append, List.mem_append, List.map_cons, List.map_nil, List.mem_cons, List.not_mem_nil, or_false]
      tauto

/-! ## Trees and their links -/

theorem setLinks_dir (g : Str → List Str → Bool → Option (List Int)) (d : Directive) :
    setLinks g d = ⟨d.directive, d.line, d.args, d.file, g d.directive d.args d.isMapBlockParameter, d.block.map (setLinksList g), d.comment, d.isMapBlockParameter⟩ := by
  obtain ⟨dd, dl, da, df, di, db, dc, dm⟩ := d
  cases db <;> rfl

theorem setLinks_twice (g g' : Str → List Str → Bool → Option (List Int)) (d : Directive) : setLinks g (setLinks g' d) = setLinks g d := by
  induction d using Directive.ind with
  | h dd dl da df di db dc dm ih =>
    cases db with
    | none => rfl
    | some ds =>
      rw [setLinks_dir g (setLinks g' _), setLinks_dir g, setLinks_dir g']
      simp only [Option.map_some, setLinksList_eq, List.map_map, Directive.mk.injEq, Option.some.injEq, true_and, and_true]
      exact List.map_congr_left fun d hd => ih ds rfl d hd

theorem link_unlink (N : List Str → Option (List Str)) (F : List Str) (ds : List Directive) : link N F (unlink ds) = link N F ds := by
  unfold link unlink
  simp only [setLinksList_eq, List.map_map]
  exact List.map_congr_left fun d _ => setLinks_twice _ _ d

theorem refsList_eq (N : List Str → Option (List Str)) (c : List Str) (ds : List Directive) : refsList N c ds = ds.flatMap (refs N c) := by
  induction ds with
  | nil => rfl
  | cons d ds ih => rw [refsList, ih]; rfl

theorem refsList_append (N : List Str → Option (List Str)) (c : List Str) (a b : List Directive) :
    refsList N c (a ++ b) = refsList N c a ++ refsList N c b := by simp [refsList_eq]

theorem refs_dir (N : List Str → Option (List Str)) (c : List Str) (d : Directive) :
    refs N c d = (standsFor N d.directive d.args d.isMapBlockParameter).map (·, c) ++ refsList N (enter c d.directive) (d.block.getD []) := by
  obtain ⟨dd, dl, da, df, di, db, dc, dm⟩ := d
  cases db <;> rfl

theorem refs_setLinks (N : List Str → Option (List Str)) (g : Str → List Str → Bool → Option (List Int)) (d : Directive) :
    ∀ c, refs N c (setLinks g d) = refs N c d := by
  induction d using Directive.ind with
  | h dd dl da df di db dc dm ih =>
    intro c
    cases db with
    | none => rfl
    | some ds =>
      rw [refs_dir, refs_dir, setLinks_dir]
      simp only [Option.map_some, Option.getD_some, refsList_eq, setLinksList_eq, List.flatMap_map]
      congr 1
      exact List.flatMap_congr fun d hd => ih ds rfl d hd _

theorem refsList_unlink (N : List Str → Option (List Str)) (c : List Str) (ds : List Directive) : refsList N c (unlink ds) = refsList N c ds := by
  unfold unlink
  rw [refsList_eq, refsList_eq, setLinksList_eq, List.flatMap_map]
  exact List.flatMap_congr fun d _ => refs_setLinks N _ d c

theorem standsFor_comment (N : List Str → Option (List Str)) (args : List Str) (p : Bool) : standsFor N c!"#" args p = [] := by
  unfold standsFor; rw [if_neg]; simp

theorem refsList_comments (N : List Str → Option (List Str)) (c : List Str) (line : Int) (file : Str) (cs : List Str) :
    refsList N c (commentDirectives line file cs) = [] := by
  induction cs with
  | nil => rfl
  | cons x cs ih =>
    show refs N c _ ++ refsList N c (commentDirectives line file cs) = []
    rw [ih, refs_dir]
    simp [standsFor_comment, refsList]

theorem link_comments (N : List Str → Option (List Str)) (F : List Str) (line : Int) (file : Str) (cs : List Str) :
    link N F (commentDirectives line file cs) = commentDirectives line file cs :=
  commentDirectives_links _ (fun _ _ => by rw [standsFor_comment]) line file cs

/-! ## Include directives -/

/-- `N` says what include directives stand for, and when they are wrong. -/
structure Follows (env : Env) (o : ParseOptions) (configDir : Str) (N : List Str → Option (List Str)) : Prop where
  some : ∀ file ctx (stmt : Directive) ps l, stmt.directive = c!"include" → N stmt.args = .some l →
    ∃ g n, doInclude env o configDir file ctx stmt ps =
      (.ok (addIncludes file ctx stmt { ps with globs := g, opens := n } l).1, (addIncludes file ctx stmt { ps with globs := g, opens := n } l).2)
  none : ∀ file ctx (stmt : Directive) ps stmt' ps', stmt.directive = c!"include" → N stmt.args = .none →
    doInclude env o configDir file ctx stmt ps = (.ok stmt', ps') → ps.payErrors.length < ps'.payErrors.length

/-- The files known so far, with the contexts they are included in. -/
structure Links (K : List Ref) (capOf : Nat → Nat) (ps : PS) : Prop where
  table : ps.included = indexed (K.map (·.1))
  nodup : (K.map (·.1)).Nodup
  good : Good capOf (fun f c => (f, c) ∈ K) ps

theorem indexed_idxOf {l : List Str} (hn : l.Nodup) {f : Str} (h : f ∈ l) : (indexed l).lookup f = some (l.idxOf f : Int) := by
  cases hl : (indexed l).lookup f with
  | none =>
    rw [assoc_none_iff, indexed_keys] at hl
    exact absurd h hl
  | some i =>
    obtain ⟨n, rfl, hn'⟩ := indexed_lookup hl
    obtain ⟨hlt, rfl⟩ := List.getElem?_eq_some_iff.mp hn'
    rw [hn.idxOf_getElem]

theorem idxOf_prefix {a b : List Str} (h : a <+: b) {f : Str} (hf : f ∈ a) : b.idxOf f = a.idxOf f := by
  obtain ⟨c, rfl⟩ := h
  exact List.idxOf_append_of_mem hf

/-- Nothing has gone wrong between the two states. -/
structure Calm (a b : PS) : Prop where
  payErrors : b.payErrors = a.payErrors
  payStatus : b.payStatus = a.payStatus
  cfgErrors : b.cfgErrors = a.cfgErrors
  cfgStatus : b.cfgStatus = a.cfgStatus

theorem Calm.refl (a : PS) : Calm a a := ⟨rfl, rfl, rfl, rfl⟩

theorem Calm.trans {a b c : PS} (h : Calm a b) (h' : Calm b c) : Calm a c :=
  ⟨h'.1.trans h.1, h'.2.trans h.2, h'.3.trans h.3, h'.4.trans h.4⟩

theorem addInclude_calm (file : Str) (ctx : Ctx) (stmt : Directive) (ps : PS) (f : Str) : Calm ps (addInclude file ctx stmt ps f).2 := by
  unfold addInclude
  cases ps.included.lookup f <;> exact ⟨rfl, rfl, rfl, rfl⟩

theorem addIncludes_calm (file : Str) (ctx : Ctx) (stmt : Directive) (ps : PS) (l : List Str) : Calm ps (addIncludes file ctx stmt ps l).2 := by
  induction l generalizing stmt ps with
  | nil => exact Calm.refl ps
  | cons f l ih => exact (addInclude_calm file ctx stmt ps f).trans (ih _ _)

theorem enterBlockCtx_calm (stmt : Directive) (ctx : Ctx) (ps : PS) : Calm ps (enterBlockCtx stmt ctx ps).2 := by
  unfold enterBlockCtx
  split
  · exact ⟨rfl, rfl, rfl, rfl⟩
  · split <;> exact ⟨rfl, rfl, rfl, rfl⟩

theorem enterBlockCtx_edges (stmt : Directive) (ctx : Ctx) (ps : PS) : (enterBlockCtx stmt ctx ps).2.includeEdges = ps.includeEdges := by
  unfold enterBlockCtx
  split
  · rfl
  · split <;> rfl

theorem addInclude_links {K : List Ref} {capOf : Nat → Nat} {ctx : Ctx} {ps : PS} (h : Links K capOf ps) (hc : CtxOk capOf ps.nextArr ctx) (file : Str)
    (stmt : Directive) (f : Str) :
    Links (collect K [(f, ctx.vals)]) capOf (addInclude file ctx stmt ps f).2 ∧ (addInclude file ctx stmt ps f).2.nextArr = ps.nextArr ∧
    (addInclude file ctx stmt ps f).1 =
      { stmt with includes := some (stmt.includes.getD [] ++ [(((collect K [(f, ctx.vals)]).map (·.1)).idxOf f : Int)]) } := by
  have hidx : ∀ {K : List Ref}, (K.map (·.1)).Nodup → f ∈ K.map (·.1) → ((indexed (K.map (·.1))).lookup f).getD 0 = ((K.map (·.1)).idxOf f : Int) := by
    intro K h1 h2
    rw [indexed_idxOf h1 h2]; rfl
  rw [collect_cons, collect_nil]
  unfold addInclude
  cases hl : ps.included.lookup f with
  | some i =>
    have hf : f ∈ K.map (·.1) := by
      by_contra hn
      rw [← indexed_keys (K.map (·.1)), ← h.table, ← assoc_none_iff, hl] at hn
      cases hn
    rw [if_pos hf]
    refine ⟨⟨h.table, h.nodup, h.good⟩, rfl, ?_⟩
    simp only
    rw [h.table, hidx h.nodup hf]
  | none =>
    have hf : f ∉ K.map (·.1) := by
      rw [assoc_none_iff, h.table, indexed_keys] at hl; exact hl
    rw [if_neg hf]
    have ht : ps.included ++ [(f, (ps.included.length : Int))] = indexed ((K ++ [(f, ctx.vals)]).map (·.1)) := by
      rw [List.map_append, List.map_cons, List.map_nil, indexed_snoc, h.table, indexed_length]
    have hnd : ((K ++ [(f, ctx.vals)]).map (·.1)).Nodup := by
      have := collect_nodup [(f, ctx.vals)] h.nodup
      rwa [collect_cons, collect_nil, if_neg hf] at this
    refine ⟨⟨ht, hnd, ?_⟩, rfl, ?_⟩
    · intro g hg
      rcases List.mem_append.mp hg with hg | hg
      · obtain ⟨h1, c, h2, h3⟩ := h.good g hg
        exact ⟨h1, c, List.mem_append_left _ h2, h3⟩
      · obtain rfl := List.mem_singleton.mp hg
        exact ⟨hc, ctx.vals, by simp, rfl, fun _ _ _ => rfl⟩
    · simp only
      rw [ht, hidx hnd (by simp)]

theorem addIncludes_links {K : List Ref} {capOf : Nat → Nat} {ctx : Ctx} {ps : PS} (h : Links K capOf ps) (hc : CtxOk capOf ps.nextArr ctx) (file : Str)
    (stmt : Directive) (l : List Str) :
    Links (collect K (l.map (·, ctx.vals))) capOf (addIncludes file ctx stmt ps l).2 ∧ (addIncludes file ctx stmt ps l).2.nextArr = ps.nextArr ∧
    ∀ F, (collect K (l.map (·, ctx.vals))).map (·.1) <+: F → (addIncludes file ctx stmt ps l).1 =
      { stmt with includes := match l with
        | [] => stmt.includes
        | f :: fs => some (stmt.includes.getD [] ++ (f :: fs).map fun f => (F.idxOf f : Int)) } := by
  induction l generalizing K stmt ps with
  | nil => exact ⟨h, rfl, fun F _ => by cases stmt; rfl⟩
  | cons f l ih =>
    obtain ⟨a1, a2, a3⟩ := addInclude_links h hc file stmt f
    obtain ⟨b1, b2, b3⟩ := ih a1 (by rw [a2]; exact hc) (addInclude file ctx stmt ps f).1
    have hcol : collect K ((f :: l).map (·, ctx.vals)) = collect (collect K [(f, ctx.vals)]) (l.map (·, ctx.vals)) := by
      rw [← collect_append]; rfl
    rw [hcol]
    unfold addIncludes
    refine ⟨b1, b2.trans a2, fun F hF => ?_⟩
    have hpre : (collect K [(f, ctx.vals)]).map (·.1) <+: F := ((collect_prefix _ _).map _).trans hF
    have hi : F.idxOf f = ((collect K [(f, ctx.vals)]).map (·.1)).idxOf f :=
      idxOf_prefix hpre (mem_collect.mpr (Or.inr (by simp)))
    show (addIncludes file ctx (addInclude file ctx stmt ps f).1 (addInclude file ctx stmt ps f).2 l).1 = _
    rw [b3 F hF, a3, ← hi]
    cases l with
    | nil => simp
    | cons g l => simp

/-- What an accepted statement does to the state. -/
theorem doInclude_links {env : Env} {o : ParseOptions} {configDir : Str} {N : List Str → Option (List Str)} (hN : Follows env o configDir N)
    {file : Str} {ctx : Ctx} {t : Tok} {args : List Str} {stmt' : Directive} {ps ps' : PS} {K : List Ref} {capOf : Nat → Nat} (h : Links K capOf ps)
    (hc : CtxOk capOf ps.nextArr ctx) (hd : doInclude env o configDir file ctx (baseStmt o file t args) ps = (.ok stmt', ps'))
    (he : ps'.payErrors.length = ps.payErrors.length) :
    Links (collect K ((standsFor N t.value args false).map (·, ctx.vals))) capOf ps' ∧ ps'.nextArr = ps.nextArr ∧
    (∀ u, outEdges ps'.includeEdges u = outEdges ps.includeEdges u ++ if u = file then standsFor N t.value args false else []) ∧
    ∀ F, (collect K ((standsFor N t.value args false).map (·, ctx.vals))).map (·.1) <+: F →
      stmt' = { baseStmt o file t args with includes := match standsFor N t.value args false with
        | [] => none
        | f :: fs => some ((f :: fs).map fun f => (F.idxOf f : Int)) } := by
  by_cases hin : t.value = c!"include"
  · have hb : (baseStmt o file t args).directive = c!"include" := hin
    have hs : standsFor N t.value args false = (N args).getD [] := by unfold standsFor; rw [if_pos ⟨hin, rfl⟩]
    rw [hs]
    cases hn : N args with
    | none =>
      have := hN.none file ctx _ ps stmt' ps' hb (show N (baseStmt o file t args).args = _ from hn) hd
      omega
    | some l =>
      obtain ⟨g, n, h1⟩ := hN.some file ctx _ ps l hb (show N (baseStmt o file t args).args = _ from hn)
      rw [h1] at hd
      cases hd
      obtain ⟨a1, a2, a3⟩ := addIncludes_links (ps := { ps with globs := g, opens := n }) ⟨h.1, h.2, h.3⟩ hc file (baseStmt o file t args) l
      refine ⟨a1, a2, fun u => addIncludes_edges file ctx _ _ l u, fun F hF => ?_⟩
      rw [a3 F hF]
      cases l <;> rfl
  · have hs : standsFor N t.value args false = [] := by unfold standsFor; rw [if_neg (by simp [hin])]
    rw [hs]
    have : doInclude env o configDir file ctx (baseStmt o file t args) ps = (.ok (baseStmt o file t args), ps) := by
      unfold doInclude
      rw [if_neg (by rw [baseStmt_directive]; simp [hin])]
    rw [this] at hd
    cases hd
    exact ⟨h, rfl, fun u => by simp, fun F _ => rfl⟩

theorem link_cons (N : List Str → Option (List Str)) (F : List Str) (d : Directive) (ds : List Directive) :
    link N F (d :: ds) = ⟨d.directive, d.line, d.args, d.file, (match standsFor N d.directive d.args d.isMapBlockParameter with
      | [] => none
      | f :: fs => some ((f :: fs).map fun f => (F.idxOf f : Int))), d.block.map (link N F), d.comment, d.isMapBlockParameter⟩ :: link N F ds := by
  show setLinks _ d :: _ = _
  rw [setLinks_dir]
  rfl

theorem link_append (N : List Str → Option (List Str)) (F : List Str) (a b : List Directive) : link N F (a ++ b) = link N F a ++ link N F b :=
  setLinksList_append _ a b

/-- A run without errors: which files it finds, in which contexts, and how its directives are linked to them. -/
theorem RunOk.links {env : Env} {o : ParseOptions} {configDir file : Str} {N : List Str → Option (List Str)} (hN : Follows env o configDir N)
    {ctx : Ctx} {toks : List Tok} {ps : PS} {ds : List Directive} {toks' : List Tok} {ps' : PS}
    (h : RunOk env o configDir file ctx toks ps ds toks' ps') (he : ps'.payErrors.length = ps.payErrors.length) :
    ∀ {K : List Ref} {capOf : Nat → Nat}, Links K capOf ps → CtxOk capOf ps.nextArr ctx →
      (∃ capOf', (∀ a < ps.nextArr, capOf' a = capOf a) ∧ ps.nextArr ≤ ps'.nextArr ∧ Links (collect K (refsList N ctx.vals ds)) capOf' ps') ∧
      (∀ u, outEdges ps'.includeEdges u = outEdges ps.includeEdges u ++ if u = file then (refsList N ctx.vals ds).map (·.1) else []) ∧
      ∀ F, (collect K (refsList N ctx.vals ds)).map (·.1) <+: F → link N F ds = ds := by
  induction h with
  | eof ctx ps => intro K capOf hl hc; exact ⟨⟨capOf, fun _ _ => rfl, Nat.le_refl _, hl⟩, fun u => by simp [refsList], fun F _ => rfl⟩
  | stop ctx t toks ps toks' ps' hs =>
    have hc := step_cases env o configDir file ctx t toks ps
    rw [hs] at hc
    cases hc with
    | close h1 h2 => intro K capOf hl hc; exact ⟨⟨capOf, fun _ _ => rfl, Nat.le_refl _, hl⟩, fun u => by simp [refsList], fun F _ => rfl⟩
    | rejectStop => simp [handleError] at he
  | next ctx t toks ps new toks1 ps1 ds toks' ps' hs hr ih =>
    have g1 := ((payErrors_rel o file).step env configDir ctx t toks ps).length_le
    rw [hs] at g1
    have g1 : ps.payErrors.length ≤ ps1.payErrors.length := g1
    have g2 := ((payErrors_rel o file).runOk hr).length_le
    intro K capOf hl hc
    have key : ∀ K1, Links K1 capOf ps1 → ps1.nextArr = ps.nextArr → K1 = collect K (refsList N ctx.vals new) →
        (∀ u, outEdges ps1.includeEdges u = outEdges ps.includeEdges u ++ if u = file then (refsList N ctx.vals new).map (·.1) else []) →
        (∀ F, K1.map (·.1) <+: F → link N F new = new) →
        (∃ capOf', (∀ a < ps.nextArr, capOf' a = capOf a) ∧ ps.nextArr ≤ ps'.nextArr ∧ Links (collect K (refsList N ctx.vals (new ++ ds))) capOf' ps') ∧
        (∀ u, outEdges ps'.includeEdges u = outEdges ps.includeEdges u ++ if u = file then (refsList N ctx.vals (new ++ ds)).map (·.1) else []) ∧
        ∀ F, (collect K (refsList N ctx.vals (new ++ ds))).map (·.1) <+: F → link N F (new ++ ds) = new ++ ds := by
      intro K1 k1 k2 k3 k4 k5
      obtain ⟨⟨c1, i1, i2, i3⟩, i4, i5⟩ := ih (by omega) k1 (by rw [k2]; exact hc)
      have hcol : collect K (refsList N ctx.vals (new ++ ds)) = collect K1 (refsList N ctx.vals ds) := by
        rw [refsList_append, collect_append, k3]
      rw [hcol]
      refine ⟨⟨c1, by rw [← k2]; exact i1, by rw [← k2]; exact i2, i3⟩, fun u => ?_, fun F hF => ?_⟩
      · rw [i4, k4, refsList_append, List.map_append]
        split <;> simp
      · rw [link_append, i5 F hF, k5 F (((collect_prefix _ _).map _).trans hF)]
    have quiet : ∀ {new' : List Directive}, new = new' → ps1 = ps → refsList N ctx.vals new' = [] → (∀ F, link N F new' = new') →
        (∃ capOf', (∀ a < ps.nextArr, capOf' a = capOf a) ∧ ps.nextArr ≤ ps'.nextArr ∧ Links (collect K (refsList N ctx.vals (new ++ ds))) capOf' ps') ∧
        (∀ u, outEdges ps'.includeEdges u = outEdges ps.includeEdges u ++ if u = file then (refsList N ctx.vals (new ++ ds)).map (·.1) else []) ∧
        ∀ F, (collect K (refsList N ctx.vals (new ++ ds))).map (·.1) <+: F → link N F (new ++ ds) = new ++ ds := by
      rintro _ rfl hps h1 h2
      exact key K (by rw [hps]; exact hl) (by rw [hps]) (by rw [h1]; rfl) (fun u => by rw [hps, h1]; simp) (fun F _ => h2 F)
    have hcs := step_cases env o configDir file ctx t toks ps
    rw [hs] at hcs
    cases hcs with
    | comment h1 h2 h3 =>
      refine quiet rfl rfl ?_ ?_
      · split
        · rw [refsList_eq]
          simp [refs_dir, commentStmt, standsFor_comment, refsList]
        · rfl
      · intro F
        split
        · rw [link_cons]
          simp [commentStmt, standsFor_comment, link, setLinksList]
        · rfl
    | mapBad => simp [handleError] at g2 he; omega
    | mapOk args comments term rest m R hm ha =>
      have hsf : ∀ n a, standsFor N n a true = [] := by intro n a; unfold standsFor; rw [if_neg (by simp)]
      refine quiet rfl rfl ?_ ?_
      · rw [refsList_eq]
        simp [refs_dir, hsf, refsList, baseStmt]
      · intro F
        rw [link_cons]
        simp [hsf, link, setLinksList, baseStmt]
    | ignored => exact quiet rfl rfl rfl (fun F => rfl)
    | rejectSkip => simp [handleError] at g2 he; omega
    | reject => simp [handleError] at g2 he; omega
    | simple args comments term rest stmt stmt' ps' R h1 h2 h3 h4 h5 h6 =>
      obtain ⟨args', e1, rfl⟩ := prepIf_iff.mp h4
      obtain ⟨e2, -⟩ := doInclude_ok rfl h5
      obtain ⟨a1, a2, a3, a4⟩ := doInclude_links hN hl hc h5 (by omega)
      have hrefs : refsList N ctx.vals ([stmt'] ++ commentDirectives stmt'.line (if o.combineConfigs then file else []) comments) =
          (standsFor N t.value args' false).map (·, ctx.vals) := by
        rw [refsList_append, refsList_comments, List.append_nil, refsList, refs_dir, e2]
        simp [baseStmt, refsList]
      refine key _ a1 a2 (by rw [hrefs]) (fun u => ?_) (fun F hF => ?_)
      · rw [a3 u, hrefs]
        simp [Function.comp_def]
      · rw [link_append, link_comments, link_cons]
        have := a4 F hF
        rw [this]
        rfl
  | block ctx t toks ps stmt comments toks1 ps1 b toks2 ps2 ds toks' ps' hs hr1 hr2 ih1 ih2 =>
    have g1 := ((payErrors_rel o file).step env configDir ctx t toks ps).length_le
    rw [hs] at g1
    have g1 : ps.payErrors.length ≤ ps1.payErrors.length := g1
    have g0 := (enterBlockCtx_calm stmt ctx ps1).payErrors
    have g2 := ((payErrors_rel o file).runOk hr1).length_le
    have g3 := ((payErrors_rel o file).runOk hr2).length_le
    rw [g0] at g2
    intro K capOf hl hc
    have hcs := step_cases env o configDir file ctx t toks ps
    rw [hs] at hcs
    cases hcs with
    | block args comments term rest stmt0 stmt' ps' R h1 h2 h3 h4 h5 h6 =>
      obtain ⟨args', e1, rfl⟩ := prepIf_iff.mp h4
      obtain ⟨e2, -⟩ := doInclude_ok rfl h5
      obtain ⟨a1, a2, a3, a4⟩ := doInclude_links hN hl hc h5 (by omega)
      obtain ⟨c1, b1, b2, b3, b4⟩ := a1.good.enter (stmt := stmt) (ctx := ctx) (by rw [a2]; exact hc)
      have hl1 : Links (collect K ((standsFor N t.value args' false).map (·, ctx.vals))) c1 (enterBlockCtx stmt ctx ps1).2 :=
        ⟨by rw [enterBlockCtx_included]; exact a1.table, a1.nodup, b4⟩
      obtain ⟨⟨c2, i1, i2, i3⟩, i4, i5⟩ := ih1 (by rw [g0]; omega) hl1 b3
      obtain ⟨⟨c3, j1, j2, j3⟩, j4, j5⟩ := ih2 (by omega) i3 (hc.mono (fun a ha => by rw [i1 a (by omega), b1 a (by omega)]) (by omega))
      have hv : (enterBlockCtx stmt ctx ps1).1.vals = enter ctx.vals t.value := by
        rw [enterBlockCtx_vals, e2]; rfl
      have hrefs : refsList N ctx.vals ({ stmt with block := some b } ::
            (commentDirectives stmt.line (if o.combineConfigs then file else []) comments ++ ds)) =
          (standsFor N t.value args' false).map (·, ctx.vals) ++ (refsList N (enter ctx.vals t.value) b ++ refsList N ctx.vals ds) := by
        show refs N ctx.vals _ ++ refsList N ctx.vals _ = _
        rw [refsList_append, refsList_comments, List.nil_append, refs_dir, e2]
        simp [baseStmt]
      rw [hv] at i3 i4 i5 j3 j5
      rw [hrefs, collect_append, collect_append]
      refine ⟨⟨c3, fun a ha => by rw [j1 a (by omega), i1 a (by omega), b1 a (by omega)], by omega, j3⟩, fun u => ?_, fun F hF => ?_⟩
      · rw [j4, i4, show (enterBlockCtx stmt ctx ps1).2.includeEdges = ps1.includeEdges from enterBlockCtx_edges stmt ctx ps1, a3]
        split <;> simp [Function.comp_def]
      · have f1 := ((collect_prefix _ (refsList N ctx.vals ds)).map (·.1)).trans hF
        have f0 := ((collect_prefix _ (refsList N (enter ctx.vals t.value) b)).map (·.1)).trans f1
        rw [link_cons, link_append, link_comments, j5 F hF, a4 F f0]
        simp [baseStmt, i5 F f1]

/-! ## A configuration with includes is accepted -/

theorem doInclude_found {env : Env} {o : ParseOptions} {configDir : Str} {N : List Str → Option (List Str)} (hN : Follows env o configDir N)
    {t : Tok} {args : List Str} (hf : (rulesOf o N).Found t.value args) (file : Str) (ctx : Ctx) (ps : PS) :
    ∃ stmt' ps1, doInclude env o configDir file ctx (baseStmt o file t args) ps = (.ok stmt', ps1) ∧ Calm ps ps1 := by
  by_cases hin : t.value = c!"include"
  · obtain ⟨l, hl⟩ := Option.isSome_iff_exists.mp (hf hin)
    obtain ⟨g, n, h1⟩ := hN.some file ctx (baseStmt o file t args) ps l hin hl
    exact ⟨_, _, h1, Calm.trans (b := { ps with globs := g, opens := n }) ⟨rfl, rfl, rfl, rfl⟩ (addIncludes_calm ..)⟩
  · refine ⟨baseStmt o file t args, ps, ?_, Calm.refl ps⟩
    unfold doInclude
    rw [if_neg (by rw [baseStmt_directive]; simp [hin])]

theorem Spec.Conf.run_links {env : Env} {o : ParseOptions} {configDir file : Str} {N : List Str → Option (List Str)} (hN : Follows env o configDir N)
    (hcomb : o.combineConfigs = false) {c : List Str} {ds : List Directive} {toks : List Tok}
    (h : Conf (rulesOf o N) c ds toks) :
    ∀ (ctx : Ctx) (ps : PS) (x x' : List Tok), ctx.vals = c → (∀ t ∈ toks, t.error = none) →
    (x = [] ∧ x' = [] ∨ ∃ cl, Mark cl c!"}" ∧ cl.error = none ∧ x = cl :: x') →
    ∃ ds' ps', RunOk env o configDir file ctx (toks ++ x) ps ds' x' ps' ∧ unlink ds' = ds ∧ Calm ps ps' := by
  have semiTerm : ∀ {t : Tok}, Mark t c!";" → t.isTerm = true := fun h => isTerm_mark.mpr (Or.inr (Or.inr h))
  have openTerm : ∀ {t : Tok}, Mark t c!"{" → t.isTerm = true := fun h => isTerm_mark.mpr (Or.inl h)
  have notClose : ∀ {t : Tok}, WordTok t → t.is c!"}" = false := fun h => is_mark_false.mpr h.2.2.1
  induction h with
  | nil =>
    intro ctx ps x x' hv he hx
    rcases hx with ⟨rfl, rfl⟩ | ⟨cl, h1, h2, rfl⟩
    · exact ⟨[], ps, .eof ctx ps, rfl, Calm.refl ps⟩
    · refine ⟨[], ps, .stop _ _ _ _ _ _ ?_, rfl, Calm.refl ps⟩
      exact (StepR.close h2 (is_mark.mpr h1)).step_eq
  | @comment c t text ds toks hpc ht hc ih =>
    intro ctx ps x x' hv he hx
    obtain ⟨ds', ps', h1, h2, h3⟩ := ih ctx ps x x' hv (fun y hy => he y (by simp [hy])) hx
    have hnc : t.is c!"}" = false := by
      rw [is_mark_false]; intro hm; rw [CommentTok, Mark, hm.2] at ht; simp at ht
    have hs := (StepR.comment (env := env) (o := o) (configDir := configDir) (file := file) (ctx := ctx) (t := t)
      (toks := toks ++ x) (ps := ps) (he t (by simp)) hnc (isCommentTok_iff.mpr ⟨text, ht⟩)).step_eq
    have hpc : o.parseComments = true := hpc
    rw [hpc, if_pos rfl] at hs
    refine ⟨_, ps', RunOk.next _ _ _ _ _ _ _ _ _ _ hs h1, ?_, h3⟩
    rw [unlink_append, h2]
    simp [commentStmt, hcomb, ht.2, unlink_cons, unlink_nil, setLinks, setLinksOpt]
  | @skip c t text ds toks hpc ht hc ih =>
    intro ctx ps x x' hv he hx
    obtain ⟨ds', ps', h1, h2, h3⟩ := ih ctx ps x x' hv (fun y hy => he y (by simp [hy])) hx
    have hnc : t.is c!"}" = false := by
      rw [is_mark_false]; intro hm; rw [CommentTok, Mark, hm.2] at ht; simp at ht
    have hs := (StepR.comment (env := env) (o := o) (configDir := configDir) (file := file) (ctx := ctx) (t := t)
      (toks := toks ++ x) (ps := ps) (he t (by simp)) hnc (isCommentTok_iff.mpr ⟨text, ht⟩)).step_eq
    have hpc : o.parseComments = false := hpc
    rw [hpc, if_neg (by simp)] at hs
    exact ⟨_, ps', RunOk.next _ _ _ _ _ _ _ _ _ _ hs h1, h2, h3⟩
  | @param c m t mid args texts semi ds toks hm hw hwords hsemi hargs hc ih =>
    intro ctx ps x x' hv he hx
    obtain ⟨ds', ps', h1, h2, h3⟩ := ih ctx ps x x' hv (fun y hy => he y (by simp [hy])) hx
    have R : Reads o t (mid ++ semi :: (toks ++ x)) args (if o.parseComments then texts else []) semi (toks ++ x) := by
      refine ⟨he t (by simp), notClose hw, (wordTok_iff.mp hw).2, ?_⟩
      simpa using hwords.read (semiTerm hsemi) (toks ++ x) [] []
    have han : analyzeMapBody file (baseStmt o file t args) semi.value m = none := by
      rw [C27_decision _ _ _ _ hm.2]
      exact ⟨hsemi.2, hargs⟩
    have hs := (StepR.mapOk (env := env) (configDir := configDir) (ctx := ctx) (ps := ps) _ _ _ _ m R (by rw [hv]; exact (mapCtx_eq _ _).mpr hm) han).step_eq
    have := RunOk.next _ _ _ _ _ _ _ _ _ _ hs h1
    refine ⟨_, ps', by simpa using this, ?_, h3⟩
    rw [unlink_cons, h2, baseStmt_plain hcomb]
    rfl
  | @ignored c t mid args texts semi ds toks hm hig hw hwords hsemi hc ih =>
    intro ctx ps x x' hv he hx
    obtain ⟨ds', ps', h1, h2, h3⟩ := ih ctx ps x x' hv (fun y hy => he y (by simp [hy])) hx
    have R : Reads o t (mid ++ semi :: (toks ++ x)) args (if o.parseComments then texts else []) semi (toks ++ x) := by
      refine ⟨he t (by simp), notClose hw, (wordTok_iff.mp hw).2, ?_⟩
      simpa using hwords.read (semiTerm hsemi) (toks ++ x) [] []
    have hs := (StepR.ignored (env := env) (configDir := configDir) (file := file) (ctx := ctx) (ps := ps) _ _ _ _ R (by rw [hv]; exact mapCtx_none.mpr hm)
      (contains_iff.mpr hig)).step_eq
    rw [skipBlock_semi hsemi] at hs
    have := RunOk.next _ _ _ _ _ _ _ _ _ _ hs h1
    exact ⟨ds', ps', by simpa using this, h2, h3⟩
  | @ignoredBlock c t mid args texts opening inner closing ds toks hm hig hw hwords hopen hinner hclose hc ih =>
    intro ctx ps x x' hv he hx
    obtain ⟨ds', ps', h1, h2, h3⟩ := ih ctx ps x x' hv (fun y hy => he y (by simp [hy])) hx
    have R : Reads o t (mid ++ opening :: (inner ++ closing :: (toks ++ x))) args (if o.parseComments then texts else []) opening
        (inner ++ closing :: (toks ++ x)) := by
      refine ⟨he t (by simp), notClose hw, (wordTok_iff.mp hw).2, ?_⟩
      simpa using hwords.read (openTerm hopen) (inner ++ closing :: (toks ++ x)) [] []
    have hs := (StepR.ignored (env := env) (configDir := configDir) (file := file) (ctx := ctx) (ps := ps) _ _ _ _ R (by rw [hv]; exact mapCtx_none.mpr hm)
      (contains_iff.mpr hig)).step_eq
    rw [skipBlock_open hopen hinner hclose (fun y hy => he y (by simp [hy]))] at hs
    have := RunOk.next _ _ _ _ _ _ _ _ _ _ hs h1
    exact ⟨ds', ps', by simpa using this, h2, h3⟩
  | @simple c t mid args args' texts semi ds toks hm hig hw hwords hsemi hok hargs hfound hc ih =>
    intro ctx ps x x' hv he hx
    obtain ⟨stmt', ps1, hd, hcalm⟩ := doInclude_found hN hfound file ctx ps
    obtain ⟨e2, -⟩ := doInclude_ok rfl hd
    obtain ⟨ds', ps', h1, h2, h3⟩ := ih ctx ps1 x x' hv (fun y hy => he y (by simp [hy])) hx
    have R : Reads o t (mid ++ semi :: (toks ++ x)) args (if o.parseComments then texts else []) semi (toks ++ x) := by
      refine ⟨he t (by simp), notClose hw, (wordTok_iff.mp hw).2, ?_⟩
      simpa using hwords.read (semiTerm hsemi) (toks ++ x) [] []
    have han : analyze file (baseStmt o file t args) semi.value ctx.vals o = none := by
      rw [analyze_rules (N := N), hsemi.2, hv]
      exact hok
    have hs := (StepR.simple (env := env) (configDir := configDir) (ctx := ctx) (ps := ps) _ _ _ _ _ _ _ R (by rw [hv]; exact mapCtx_none.mpr hm)
      (contains_false_iff.mpr hig) han (prepIf_iff.mpr ⟨args', hargs, rfl⟩) hd
      (by rw [is_mark_false]; intro h; have := hsemi.2; rw [h.2] at this; cases this)).step_eq
    have := RunOk.next _ _ _ _ _ _ _ _ _ _ hs h1
    refine ⟨_, ps', by simpa using this, ?_, hcalm.trans h3⟩
    rw [unlink_cons, unlink_append, unlink_comments, commentDirectives_at hcomb _ _ _ N, e2, baseStmt_plain hcomb, h2]
    rfl
  | @block c t mid args args' texts opening b inner closing ds toks hm hig hw hwords hopen hok hargs hfound hb hclose hc ihb ih =>
    intro ctx ps x x' hv he hx
    obtain ⟨stmt', ps0, hd, hcalm⟩ := doInclude_found hN hfound file ctx ps
    obtain ⟨e2, -⟩ := doInclude_ok rfl hd
    have hdir : stmt'.directive = t.value := by rw [e2]; rfl
    have hq := enterBlockCtx_calm stmt' ctx ps0
    obtain ⟨b', ps1, i1, i2, i3⟩ := ihb (enterBlockCtx stmt' ctx ps0).1 (enterBlockCtx stmt' ctx ps0).2
      (closing :: (toks ++ x)) (toks ++ x) (by rw [enterBlockCtx_vals, hv, hdir])
      (fun y hy => he y (by simp [hy])) (Or.inr ⟨closing, hclose, he closing (by simp), rfl⟩)
    obtain ⟨ds', ps', h1, h2, h3⟩ := ih ctx ps1 x x' hv (fun y hy => he y (by simp [hy])) hx
    have R : Reads o t (mid ++ opening :: (inner ++ closing :: (toks ++ x))) args (if o.parseComments then texts else []) opening
        (inner ++ closing :: (toks ++ x)) := by
      refine ⟨he t (by simp), notClose hw, (wordTok_iff.mp hw).2, ?_⟩
      simpa using hwords.read (openTerm hopen) (inner ++ closing :: (toks ++ x)) [] []
    have han : analyze file (baseStmt o file t args) opening.value ctx.vals o = none := by
      rw [analyze_rules (N := N), hopen.2, hv]
      exact hok
    have hs := (StepR.block (env := env) (configDir := configDir) (ctx := ctx) (ps := ps) _ _ _ _ _ _ _ R (by rw [hv]; exact mapCtx_none.mpr hm)
      (contains_false_iff.mpr hig) han (prepIf_iff.mpr ⟨args', hargs, rfl⟩) hd (is_mark.mpr hopen)).step_eq
    have := RunOk.block _ _ _ _ _ _ _ _ _ _ _ _ _ _ hs i1 h1
    refine ⟨_, ps', by simpa using this, ?_, hcalm.trans (hq.trans (i3.trans h3))⟩
    rw [unlink_cons, unlink_append, unlink_comments, commentDirectives_at hcomb _ _ _ N, e2, baseStmt_plain hcomb, h2, ← i2]
    rfl

/-! ## The files -/

/-- The files that can be opened and the files that match a pattern do not change. -/
structure ReadOnly (env : Env) (text : Str → Option FileData) (matching : Str → Option (List Str)) : Prop where
  isFile : ∀ n f d, text f = some d → env.openFile n f = .ok d
  noFile : ∀ n f, text f = none → ∃ e, env.openFile n f = .error e
  found : ∀ n p l, matching p = some l → ∃ l', env.glob n p = .ok l' ∧ l.Perm l' ∧ l.Pairwise fun a b => strLt b a = false
  notFound : ∀ n p, matching p = none → ∃ e, env.glob n p = .error e

theorem sortStrings_sorted {l : List Str} (h : l.Pairwise fun a b => strLt b a = false) : sortStrings l = l := by
  induction l with
  | nil => rfl
  | cons x l ih =>
    rw [List.pairwise_cons] at h
    rw [sortStrings, ih h.2]
    cases l with
    | nil => rfl
    | cons y l => rw [insertSorted, if_neg (by rw [h.1 y (by simp)]; simp)]

/-- The files of include directives in the file system. -/
def diskNames (env : Env) (configDir : Str) (text : Str → Option FileData) (matching : Str → Option (List Str)) : List Str → Option (List Str) :=
  namesIn env.isAbs env.join configDir (fun f => (text f).isSome) matching

theorem hasMagic_iff (p : Str) : hasMagic p = true ↔ '*' ∈ p ∨ '?' ∈ p ∨ '[' ∈ p := by
  unfold hasMagic
  rw [List.any_eq_true]
  constructor
  · rintro ⟨c, hc, h⟩
    simp only [Bool.or_eq_true, beq_iff_eq] at h
    rcases h with (rfl | rfl) | rfl <;> simp [hc]
  · rintro (h | h | h)
    exacts [⟨_, h, by simp⟩, ⟨_, h, by simp⟩, ⟨_, h, by simp⟩]

theorem ReadOnly.follows {env : Env} {text : Str → Option FileData} {matching : Str → Option (List Str)} (h : ReadOnly env text matching) {o : ParseOptions}
    (ho : o.singleFile = false) (configDir : Str) : Follows env o configDir (diskNames env configDir text matching) := by
  have hres : ∀ a, resolve env configDir a = if env.isAbs a then a else env.join configDir a := by
    intro a; unfold resolve; cases env.isAbs a <;> simp
  constructor
  · intro file ctx stmt ps l hd hn
    have hr := doInclude_inclR env o configDir file ctx stmt ps
    have hc : (!o.singleFile && stmt.directive == c!"include") = true := by simp [ho, hd]
    cases hargs : stmt.args with
    | nil => rw [hargs] at hn; simp [diskNames, namesIn] at hn
    | cons a as =>
      rw [hargs] at hn
      simp only [diskNames, namesIn, ← hres, ← hasMagic_iff] at hn
      generalize hx : doInclude env o configDir file ctx stmt ps = x at hr
      cases hr with
      | other h1 => rw [hc] at h1; cases h1
      | noArgs _ h1 => rw [hargs] at h1; cases h1
      | globErr a' as' e _ h1 h2 h3 =>
        rw [hargs] at h1; cases h1
        rw [if_pos h2] at hn
        obtain ⟨l', h4, -⟩ := h.found ps.globs _ _ hn
        rw [h3] at h4; cases h4
      | globOk a' as' names _ h1 h2 h3 =>
        rw [hargs] at h1; cases h1
        rw [if_pos h2] at hn
        obtain ⟨l', h4, h5, h6⟩ := h.found ps.globs _ _ hn
        rw [h3] at h4; cases h4
        rw [← sortStrings_perm h5, sortStrings_sorted h6]
        exact ⟨ps.globs + 1, ps.opens, rfl⟩
      | openBad a' as' e _ h1 h2 h3 =>
        rw [hargs] at h1; cases h1
        rw [if_neg (by simp [h2])] at hn
        split at hn
        · rename_i hs
          obtain ⟨d, hd⟩ := Option.isSome_iff_exists.mp hs
          rw [h.isFile _ _ _ hd] at h3; cases h3
        · cases hn
      | openFail a' as' e _ h1 h2 h3 =>
        rw [hargs] at h1; cases h1
        rw [if_neg (by simp [h2])] at hn
        split at hn
        · rename_i hs
          obtain ⟨d, hd⟩ := Option.isSome_iff_exists.mp hs
          rw [h.isFile _ _ _ hd] at h3; cases h3
        · cases hn
      | openOk a' as' data _ h1 h2 h3 =>
        rw [hargs] at h1; cases h1
        rw [if_neg (by simp [h2])] at hn
        split at hn
        · cases hn
          exact ⟨ps.globs, ps.opens + 1, rfl⟩
        · cases hn
  · intro file ctx stmt ps stmt' ps' hd hn hx
    have hr := doInclude_inclR env o configDir file ctx stmt ps
    have hc : (!o.singleFile && stmt.directive == c!"include") = true := by simp [ho, hd]
    rw [hx] at hr
    cases hr with
    | other h1 => rw [hc] at h1; cases h1
    | globOk a' as' names _ h1 h2 h3 =>
      rw [h1] at hn
      simp only [diskNames, namesIn, ← hres, ← hasMagic_iff] at hn
      rw [if_pos h2] at hn
      obtain ⟨e, h4⟩ := h.notFound ps.globs _ hn
      rw [h3] at h4; cases h4
    | openBad a' as' e _ h1 h2 h3 h4 => simp [handleError]
    | openOk a' as' data _ h1 h2 h3 =>
      rw [h1] at hn
      simp only [diskNames, namesIn, ← hres, ← hasMagic_iff] at hn
      rw [if_neg (by simp [h2])] at hn
      split at hn
      · cases hn
      · rename_i hs
        obtain ⟨e, h4⟩ := h.noFile ps.opens _ (by simpa using hs)
        rw [h3] at h4; cases h4

theorem ref_unique {K : List Ref} (h : (K.map (·.1)).Nodup) {f : Str} {c c' : List Str} (h1 : (f, c) ∈ K) (h2 : (f, c') ∈ K) : c = c' := by
  induction K with
  | nil => cases h1
  | cons r K ih =>
    rw [List.map_cons, List.nodup_cons] at h
    rcases List.mem_cons.mp h1 with e1 | h1 <;> rcases List.mem_cons.mp h2 with e2 | h2
    · rw [← e1] at e2; cases e2; rfl
    · exact absurd (List.mem_map.mpr ⟨_, h2, by rw [← e1]⟩) h.1
    · exact absurd (List.mem_map.mpr ⟨_, h1, by rw [← e2]⟩) h.1
    · exact ih h.2 h1 h2

/-- A file of the worklist is read in the context of the project. -/
theorem Links.ctx {K : List Ref} {capOf : Nat → Nat} {ps : PS} (h : Links K capOf ps) {incl : FileCtx} (hi : incl ∈ ps.includes) {K' : List Ref}
    (hp : K <+: K') (hn : (K'.map (·.1)).Nodup) {c : List Str} (hm : (incl.path, c) ∈ K') (hf : Fresh c.length) : incl.ctx.vals = c := by
  obtain ⟨-, c', h1, h2, h3⟩ := h.good incl hi
  obtain rfl := ref_unique hn hm (hp.subset h1)
  have := h3 _ (Nat.le_refl _) hf
  rwa [List.take_length, ← h2, List.take_length] at this

theorem Links.start {K : List Ref} {capOf : Nat → Nat} {ps : PS} (h : Links K capOf ps) {incl : FileCtx} {rest : List FileCtx}
    (hi : ps.includes = incl :: rest) : Links K capOf (startFile ps rest) ∧ CtxOk capOf (startFile ps rest).nextArr incl.ctx :=
  ⟨⟨h.table, h.nodup, fun f hf => h.good f (by rw [hi]; exact List.mem_cons_of_mem _ hf)⟩, (h.good incl (by rw [hi]; simp)).1⟩

theorem indexed_inj {a b : List Str} (h : indexed a = indexed b) : a = b := by
  rw [← indexed_keys a, h, indexed_keys]

theorem Links.paths {K : List Ref} {capOf : Nat → Nat} {ps : PS} (h : Links K capOf ps) {done : List Str} (ht : Table done ps) :
    done ++ ps.paths = K.map (·.1) := indexed_inj (by rw [← ht.included, h.table])

/-- The config of a file of a project. -/
def fileOk (f : SourceFile) : Config := { file := f.name, status := c!"ok", parsed := f.tree }

/-- A project is read without an error, and gives its files. -/
theorem Spec.Project.run {env : Env} {text : Str → Option FileData} {matching : Str → Option (List Str)} (hd : ReadOnly env text matching) {o : ParseOptions}
    (ho : o.singleFile = false) (hcomb : o.combineConfigs = false) {configDir start : Str}
    {fs : List SourceFile}
    (h : Project (fun f => (text f).map (fileToks o)) (rulesOf o (diskNames env configDir text matching)) start fs)
    (hfresh : ∀ f ∈ fs, Fresh f.ctx.length) (rest : List SourceFile) :
    ∀ (done : List SourceFile) (ps : PS) (capOf : Nat → Nat), fs = done ++ rest → Table (done.map (·.name)) ps →
      Links (collect [(start, [])] (done.flatMap (·.refs (diskNames env configDir text matching)))) capOf ps →
      ∃ ps', FilesOk env o configDir ps (rest.map fileOk) ps' ∧ ps'.payErrors = ps.payErrors ∧ ps'.payStatus = ps.payStatus ∧
        ∀ u v, ps'.Edge u v ↔ ps.Edge u v ∨ ∃ f ∈ rest, f.name = u ∧ v ∈ (f.refs (diskNames env configDir text matching)).map (·.1) := by
  have hN := hd.follows ho configDir
  generalize hNe : diskNames env configDir text matching = N at *
  have hfiles := h.files
  have hrn : (rulesOf o N).names = N := rfl
  rw [hrn] at hfiles
  have hnd : ((fs.map fun f => (f.name, f.ctx)).map (·.1)).Nodup := by
    rw [hfiles]; exact collect_nodup _ (by simp)
  have hfst : (fs.map fun f => (f.name, f.ctx)).map (·.1) = fs.map (·.name) := by simp [Function.comp_def]
  induction rest with
  | nil =>
    intro done ps capOf hfs ht hl
    rw [List.append_nil] at hfs
    subst hfs
    have hp := hl.paths ht
    rw [← hfiles, hfst] at hp
    have : ps.includes = [] := by
      have := List.append_right_eq_self.mp hp
      simpa [PS.paths] using this
    exact ⟨ps, .nil ps this, rfl, rfl, fun u v => by simp⟩
  | cons f rest ih =>
    intro done ps capOf hfs ht hl
    have hf : f ∈ fs := by rw [hfs]; simp
    have hpre : collect [(start, [])] (done.flatMap (·.refs N)) <+: fs.map fun f => (f.name, f.ctx) := by
      rw [hfiles, hfs, List.flatMap_append, collect_append]
      exact collect_prefix _ _
    have hp := hl.paths ht
    have hpn : (collect [(start, [])] (done.flatMap (·.refs N))).map (·.1) <+: done.map (·.name) ++ f.name :: rest.map (·.name) := by
      have := hpre.map (·.1)
      rwa [hfst, hfs, List.map_append, List.map_cons] at this
    rw [← hp, List.prefix_append_right_inj] at hpn
    have hne : f.name ∈ ps.paths := by
      have hmem : f.name ∈ done.map (·.name) ++ ps.paths := by
        rw [hp, mem_collect]
        by_cases hdn : done = []
        · left
          have hs : start ∈ ((fs.map fun f => (f.name, f.ctx)).map (·.1)).head? := by
            obtain ⟨x, hx⟩ := hpre
            rw [← hx, hdn]; rfl
          rw [hfst, hfs, hdn] at hs
          simp at hs
          simp [hs]
        · right
          obtain ⟨g, hg, hgm⟩ := h.earlier done f rest hfs hdn
          obtain ⟨r, hr, hrf⟩ := List.mem_map.mp hgm
          exact List.mem_map.mpr ⟨r, List.mem_flatMap.mpr ⟨g, hg, hr⟩, hrf⟩
      rcases List.mem_append.mp hmem with hm | hm
      · rw [hfst, hfs, List.map_append, List.map_cons, List.nodup_append] at hnd
        exact absurd rfl (hnd.2.2 _ hm f.name (by simp))
      · exact hm
    cases hinc : ps.includes with
    | nil => rw [PS.paths, hinc] at hne; cases hne
    | cons incl rest' =>
      rw [PS.paths, hinc, List.map_cons, List.cons_prefix_cons] at hpn
      have hname : incl.path = f.name := hpn.1
      have hctx : incl.ctx.vals = f.ctx :=
        hl.ctx (incl := incl) (by rw [hinc]; simp) hpre hnd (List.mem_map.mpr ⟨f, hf, by rw [hname]⟩) (hfresh f hf)
      obtain ⟨ts, hts, hterr, hconf⟩ := h.conf f hf
      rw [Option.map_eq_some_iff] at hts
      obtain ⟨data, hdata, rfl⟩ := hts
      obtain ⟨ds', ps1, r1, r2, r3⟩ := hconf.run_links (env := env) (configDir := configDir) (file := incl.path) hN hcomb incl.ctx (startFile ps rest') [] []
        hctx hterr (Or.inl ⟨rfl, rfl⟩)
      rw [List.append_nil] at r1
      obtain ⟨hl1, hc1⟩ := hl.start hinc
      obtain ⟨⟨c1, -, -, l3⟩, l4, l5⟩ := r1.links hN (by rw [r3.payErrors]) hl1 hc1
      have hrefs : refsList N incl.ctx.vals ds' = f.refs N := by
        rw [hctx, ← refsList_unlink, r2, refsList_unlink]; rfl
      rw [hrefs] at l3 l4 l5
      have hstep : collect (collect [(start, [])] (done.flatMap (·.refs N))) (f.refs N) = collect [(start, [])] ((done ++ [f]).flatMap (·.refs N)) := by
        rw [List.flatMap_append, collect_append]; simp
      rw [hstep] at l3 l5
      have hpre1 : collect [(start, [])] ((done ++ [f]).flatMap (·.refs N)) <+: fs.map fun f => (f.name, f.ctx) := by
        have e : fs.flatMap (·.refs N) = (done ++ [f]).flatMap (·.refs N) ++ rest.flatMap (·.refs N) := by rw [hfs]; simp
        rw [hfiles, e, collect_append]
        exact collect_prefix _ _
      have htree : ds' = f.tree := by
        have e1 := l5 (fs.map (·.name)) (by rw [← hfst]; exact hpre1.map _)
        rw [← e1, ← link_unlink, r2, link_unlink]
        exact h.linked f hf
      subst htree
      have ht1 := (table_rel _ o incl.path).runOk r1 (ht.start hinc)
      obtain ⟨ps', q1, q2, q3, q4⟩ := ih (done ++ [f]) ps1 c1 (by rw [hfs]; simp) (by rw [List.map_append, List.map_cons, List.map_nil, ← hname]; exact ht1) l3
      refine ⟨ps', ?_, by rw [q2, r3.payErrors]; rfl, by rw [q3, r3.payStatus]; rfl, fun u v => ?_⟩
      · have := FilesOk.ok ps incl rest' data _ _ ps1 _ ps' hinc (hd.isFile _ _ _ (by rw [hname]; exact hdata)) r1 q1
        have hcfg : fileConfig incl.path ps1 f.tree = fileOk f := by
          unfold fileConfig fileOk
          rw [r3.cfgErrors, r3.cfgStatus, hname]; rfl
        rw [hcfg] at this
        exact this
      · rw [q4]
        unfold PS.Edge
        rw [l4, List.mem_append]
        show (v ∈ outEdges ps.includeEdges u ∨ _) ∨ _ ↔ _
        by_cases hu : u = incl.path
        · rw [if_pos hu]
          constructor
          · rintro ((h | h) | ⟨g, hg, h⟩)
            exacts [Or.inl h, Or.inr ⟨f, by simp, by rw [hu, hname], h⟩, Or.inr ⟨g, by simp [hg], h⟩]
          · rintro (h | ⟨g, hg, h1, h2⟩)
            · exact Or.inl (Or.inl h)
            · rcases List.mem_cons.mp hg with rfl | hg
              exacts [Or.inl (Or.inr h2), Or.inr ⟨g, hg, h1, h2⟩]
        · rw [if_neg hu]
          constructor
          · rintro ((h | h) | ⟨g, hg, h⟩)
            exacts [Or.inl h, (by cases h), Or.inr ⟨g, by simp [hg], h⟩]
          · rintro (h | ⟨g, hg, h1, h2⟩)
            · exact Or.inl (Or.inl h)
            · rcases List.mem_cons.mp hg with rfl | hg
              exacts [absurd (by rw [hname, h1]) hu, Or.inr ⟨g, hg, h1, h2⟩]

/-- Files that are read without an error are a project. -/
theorem FilesOk.project {env : Env} {text : Str → Option FileData} {matching : Str → Option (List Str)} (hd : ReadOnly env text matching) {o : ParseOptions}
    (ho : o.singleFile = false) (hcomb : o.combineConfigs = false) {configDir start : Str}
    {fs : List SourceFile}
    (hfiles : fs.map (fun f => (f.name, f.ctx)) = collect [(start, [])] (fs.flatMap (·.refs (diskNames env configDir text matching))))
    (hfresh : ∀ f ∈ fs, Fresh f.ctx.length)
    (hst : ∀ f ∈ fs, ∀ d, text f.name = some d → Formed o d)
    {ps ps' : PS} {cs : List Config} (h : FilesOk env o configDir ps cs ps') (he : ps'.payErrors.length = ps.payErrors.length) :
    ∀ (done rest : List SourceFile) (capOf : Nat → Nat), cs.map (fun c => (c.file, c.parsed)) = rest.map (fun f => (f.name, f.tree)) →
      fs = done ++ rest → Table (done.map (·.name)) ps →
      Links (collect [(start, [])] (done.flatMap (·.refs (diskNames env configDir text matching)))) capOf ps →
      (∀ f ∈ rest, (∃ ts, (text f.name).map (fileToks o) = some ts ∧ (∀ t ∈ ts, t.error = none) ∧
          Conf (rulesOf o (diskNames env configDir text matching)) f.ctx (unlink f.tree) ts) ∧
        link (diskNames env configDir text matching) (fs.map (·.name)) f.tree = f.tree) ∧
      (∀ pre f post, rest = pre ++ f :: post → done ++ pre ≠ [] →
        ∃ g ∈ done ++ pre, f.name ∈ (g.refs (diskNames env configDir text matching)).map (·.1)) ∧
      ∀ u v, ps'.Edge u v ↔ ps.Edge u v ∨ ∃ f ∈ rest, f.name = u ∧ v ∈ (f.refs (diskNames env configDir text matching)).map (·.1) := by
  have hN := hd.follows ho configDir
  generalize hNe : diskNames env configDir text matching = N at *
  have hnd : ((fs.map fun f => (f.name, f.ctx)).map (·.1)).Nodup := by
    rw [hfiles]; exact collect_nodup _ (by simp)
  have hfst : (fs.map fun f => (f.name, f.ctx)).map (·.1) = fs.map (·.name) := by simp [Function.comp_def]
  induction h with
  | nil ps hn =>
    intro done rest capOf hcs hfs ht hl
    have : rest = [] := by
      rw [List.map_nil] at hcs
      exact List.map_eq_nil_iff.mp hcs.symm
    subst this
    exact ⟨by simp, fun pre f post hx => by simp at hx, fun u v => by simp⟩
  | bad ps incl rest' data e toks' ps1 cs ps' hin hop hr hs hf ih =>
    have g1 := hf.errors_grow.length_le
    have g2 := ((payErrors_rel o incl.path).runFail hr).length_le
    simp only [handleError, List.length_append, List.length_cons, List.length_nil] at g1
    have g2 : ps.payErrors.length ≤ ps1.payErrors.length := g2
    omega
  | ok ps incl rest' data ds toks' ps1 cs ps' hin hop hr hf ih =>
    have g1 := hf.errors_grow.length_le
    have g2 := ((payErrors_rel o incl.path).runOk hr).length_le
    have g2 : ps.payErrors.length ≤ ps1.payErrors.length := g2
    intro done rest capOf hcs hfs ht hl
    cases rest with
    | nil => simp at hcs
    | cons f rest =>
      rw [List.map_cons, List.map_cons, List.cons.injEq, Prod.mk.injEq] at hcs
      obtain ⟨⟨hname, htree⟩, hcs⟩ := hcs
      replace hname : incl.path = f.name := hname
      replace htree : ds = f.tree := htree
      subst htree
      have hff : f ∈ fs := by rw [hfs]; simp
      have hpre : collect [(start, [])] (done.flatMap (·.refs N)) <+: fs.map fun f => (f.name, f.ctx) := by
        rw [hfiles, hfs, List.flatMap_append, collect_append]
        exact collect_prefix _ _
      have hctx : incl.ctx.vals = f.ctx :=
        hl.ctx (incl := incl) (by rw [hin]; simp) hpre hnd (List.mem_map.mpr ⟨f, hff, by rw [hname]⟩) (hfresh f hff)
      obtain ⟨hl1, hc1⟩ := hl.start hin
      have he1 : ps1.payErrors.length = (startFile ps rest').payErrors.length := by
        show ps1.payErrors.length = ps.payErrors.length; omega
      obtain ⟨⟨c1, -, -, l3⟩, l4, l5⟩ := hr.links hN he1 hl1 hc1
      have hrefs : refsList N incl.ctx.vals f.tree = f.refs N := by rw [hctx]; rfl
      rw [hrefs] at l3 l4 l5
      have hstep : collect (collect [(start, [])] (done.flatMap (·.refs N))) (f.refs N) = collect [(start, [])] ((done ++ [f]).flatMap (·.refs N)) := by
        rw [List.flatMap_append, collect_append]; simp
      rw [hstep] at l3 l5
      have hpre1 : collect [(start, [])] ((done ++ [f]).flatMap (·.refs N)) <+: fs.map fun f => (f.name, f.ctx) := by
        have e : fs.flatMap (·.refs N) = (done ++ [f]).flatMap (·.refs N) ++ rest.flatMap (·.refs N) := by rw [hfs]; simp
        rw [hfiles, e, collect_append]
        exact collect_prefix _ _
      have hdata : text f.name = some data := by
        cases ht : text f.name with
        | none =>
          obtain ⟨e, h1⟩ := hd.noFile ps.opens _ ht
          rw [← hname, hop] at h1; cases h1
        | some d =>
          have h1 := hd.isFile ps.opens _ _ ht
          rw [← hname, hop] at h1; cases h1; rfl
      have s1 := hst f hff data hdata
      obtain ⟨k1, k2⟩ := hr.file_conf hcomb he1 s1 N (fun ctx t args ps2 stmt' ps3 hin hdo hpe => by
        by_contra hno
        have := hN.none incl.path ctx (baseStmt o incl.path t args) ps2 stmt' ps3 hin (show N args = none by simpa using hno) hdo
        omega)
      rw [hctx] at k2
      have ht1 := (table_rel _ o incl.path).runOk hr (ht.start hin)
      obtain ⟨q1, q2, q3⟩ := ih (by omega) (done ++ [f]) rest c1 hcs (by rw [hfs]; simp) (by rw [List.map_append, List.map_cons, List.map_nil, ← hname]; exact ht1) l3
      refine ⟨?_, ?_, fun u v => ?_⟩
      · intro g hg
        rcases List.mem_cons.mp hg with rfl | hg
        · exact ⟨⟨_, by rw [hdata]; rfl, k1, k2⟩, l5 (fs.map (·.name)) (by rw [← hfst]; exact hpre1.map _)⟩
        · exact q1 g hg
      · intro pre g post hx hnn
        cases pre with
        | nil =>
          rw [List.nil_append, List.cons.injEq] at hx
          obtain ⟨rfl, -⟩ := hx
          rw [List.append_nil] at hnn ⊢
          have hp := hl.paths ht
          have hm : f.name ∈ done.map (·.name) ++ ps.paths := by
            rw [PS.paths, hin, List.map_cons, hname]; simp
          rw [hp, mem_collect] at hm
          rcases hm with hm | hm
          · exfalso
            obtain rfl : f.name = start := by simpa using hm
            obtain ⟨g, done, rfl⟩ := List.exists_cons_of_ne_nil hnn
            obtain ⟨x, hx⟩ := hpre
            have hg : g.name = f.name := by
              have := congrArg (fun l => (l.map (·.1)).head?) hx
              obtain ⟨y, hy⟩ := collect_prefix [(f.name, [])] ((g :: done).flatMap (·.refs N))
              rw [← hy, hfs] at this
              simpa using this.symm
            rw [hfst, hfs, List.map_append, List.nodup_append] at hnd
            exact hnd.2.2 g.name (by simp) f.name (by simp) hg
          · obtain ⟨r, hr', hrf⟩ := List.mem_map.mp hm
            obtain ⟨g, hg, hgr⟩ := List.mem_flatMap.mp hr'
            exact ⟨g, hg, List.mem_map.mpr ⟨r, hgr, hrf⟩⟩
        | cons a pre =>
          rw [List.cons_append, List.cons.injEq] at hx
          obtain ⟨rfl, hx⟩ := hx
          obtain ⟨g', hg', h2⟩ := q2 pre g post hx (by simp)
          exact ⟨g', by simpa using hg', h2⟩
      · rw [q3]
        unfold PS.Edge
        rw [l4, List.mem_append]
        show (v ∈ outEdges ps.includeEdges u ∨ _) ∨ _ ↔ _
        by_cases hu : u = incl.path
        · rw [if_pos hu]
          constructor
          · rintro ((h | h) | ⟨g, hg, h⟩)
            exacts [Or.inl h, Or.inr ⟨f, by simp, by rw [hu, hname], h⟩, Or.inr ⟨g, by simp [hg], h⟩]
          · rintro (h | ⟨g, hg, h1, h2⟩)
            · exact Or.inl (Or.inl h)
            · rcases List.mem_cons.mp hg with rfl | hg
              exacts [Or.inl (Or.inr h2), Or.inr ⟨g, hg, h1, h2⟩]
        · rw [if_neg hu]
          constructor
          · rintro ((h | h) | ⟨g, hg, h⟩)
            exacts [Or.inl h, (by cases h), Or.inr ⟨g, by simp [hg], h⟩]
          · rintro (h | ⟨g, hg, h1, h2⟩)
            · exact Or.inl (Or.inl h)
            · rcases List.mem_cons.mp hg with rfl | hg
              exacts [absurd (by rw [hname, h1]) hu, Or.inr ⟨g, hg, h1, h2⟩]

/-- The files of an ok run with the contexts that `arrange` computes are all the files that are included in them, in order. -/
theorem FilesOk.arranged {env : Env} {o : ParseOptions} {configDir : Str} {N : List Str → Option (List Str)} (hN : Follows env o configDir N)
    {ps ps' : PS} {cs : List Config} (h : FilesOk env o configDir ps cs ps') (he : ps'.payErrors.length = ps.payErrors.length) :
    ∀ (done : List Str) (K : List Ref) (capOf : Nat → Nat), Table done ps → Links K capOf ps →
      (∀ f ∈ arrange N K done.length (cs.map fun c => (c.file, c.parsed)), Fresh f.ctx.length) →
      (arrange N K done.length (cs.map fun c => (c.file, c.parsed))).map (fun f => (f.name, f.ctx)) =
        (collect K ((arrange N K done.length (cs.map fun c => (c.file, c.parsed))).flatMap (·.refs N))).drop done.length := by
  induction h with
  | nil ps hn =>
    intro done K capOf ht hl _
    have hp := hl.paths ht
    rw [PS.paths, hn, List.map_nil, List.append_nil] at hp
    show [] = K.drop done.length
    rw [hp, List.length_map, List.drop_length]
  | bad ps incl rest' data e toks' ps1 cs ps' hin hop hr hs hf ih =>
    have g1 := hf.errors_grow.length_le
    have g2 := ((payErrors_rel o incl.path).runFail hr).length_le
    simp only [handleError, List.length_append, List.length_cons, List.length_nil] at g1
    have g2 : ps.payErrors.length ≤ ps1.payErrors.length := g2
    omega
  | ok ps incl rest' data ds toks' ps1 cs ps' hin hop hr hf ih =>
    have g1 := hf.errors_grow.length_le
    have g2 := ((payErrors_rel o incl.path).runOk hr).length_le
    have g2 : ps.payErrors.length ≤ ps1.payErrors.length := g2
    intro done K capOf ht hl hfresh
    have hp := hl.paths ht
    rw [PS.paths, hin, List.map_cons] at hp
    have hk : (K.map (·.1))[done.length]? = some incl.path := by rw [← hp]; simp
    rw [List.getElem?_map, Option.map_eq_some_iff] at hk
    obtain ⟨⟨f, c⟩, hk, rfl⟩ := hk
    have hcons : arrange N K done.length ((fileConfig incl.path ps1 ds :: cs).map fun c => (c.file, c.parsed)) =
        ⟨incl.path, c, ds⟩ :: arrange N (collect K (refsList N c ds)) (done.length + 1) (cs.map fun c => (c.file, c.parsed)) := by
      rw [List.map_cons, arrange, hk]; rfl
    rw [hcons] at hfresh ⊢
    have hctx : incl.ctx.vals = c := hl.ctx (incl := incl) (by rw [hin]; simp) (List.prefix_refl K) hl.nodup (List.mem_of_getElem? hk)
      (hfresh _ (List.mem_cons_self ..))
    obtain ⟨hl1, hc1⟩ := hl.start hin
    have he1 : ps1.payErrors.length = (startFile ps rest').payErrors.length := by
      show ps1.payErrors.length = ps.payErrors.length; omega
    obtain ⟨⟨c1, -, -, l3⟩, -, -⟩ := hr.links hN he1 hl1 hc1
    rw [hctx] at l3
    have ht1 := (table_rel _ o incl.path).runOk hr (ht.start hin)
    have hlen : (done ++ [incl.path]).length = done.length + 1 := by simp
    have := ih (by omega) (done ++ [incl.path]) _ c1 ht1 l3 (by rw [hlen]; exact fun f hf => hfresh f (List.mem_cons_of_mem _ hf))
    rw [hlen] at this
    rw [List.map_cons, this, List.flatMap_cons]
    show (incl.path, c) :: (collect (collect K (refsList N c ds)) _).drop (done.length + 1) = (collect K (refsList N c ds ++ _)).drop done.length
    rw [collect_append]
    have hx : (collect (collect K (refsList N c ds)) ((arrange N (collect K (refsList N c ds)) (done.length + 1) (cs.map fun c => (c.file, c.parsed))).flatMap
        (·.refs N)))[done.length]? = some (incl.path, c) := by
      have hpre := (collect_prefix K (refsList N c ds)).trans (collect_prefix (collect K (refsList N c ds))
        ((arrange N (collect K (refsList N c ds)) (done.length + 1) (cs.map fun c => (c.file, c.parsed))).flatMap (·.refs N)))
      obtain ⟨x, hx⟩ := hpre
      rw [← hx, List.getElem?_append_left (List.getElem?_eq_some_iff.mp hk).1]
      exact hk
    obtain ⟨hlt, hx⟩ := List.getElem?_eq_some_iff.mp hx
    rw [List.drop_eq_getElem_cons hlt, hx]

/-- The contexts of a project are those that `arrange` computes. -/
theorem Spec.Project.arranged {toks : Str → Option (List Tok)} {r : Rules} {start : Str} {fs : List SourceFile} (h : Project toks r start fs) :
    ∀ (rest done : List SourceFile), fs = done ++ rest →
      arrange r.names (collect [(start, [])] (done.flatMap (·.refs r.names))) done.length (rest.map fun f => (f.name, f.tree)) = rest := by
  intro rest
  induction rest with
  | nil => intros; rfl
  | cons f rest ih =>
    intro done hfs
    have hpre : collect [(start, [])] (done.flatMap (·.refs r.names)) <+: fs.map fun f => (f.name, f.ctx) := by
      have e : fs.flatMap (·.refs r.names) = done.flatMap (·.refs r.names) ++ (f :: rest).flatMap (·.refs r.names) := by rw [hfs, List.flatMap_append]
      rw [h.files, e, collect_append]
      exact collect_prefix _ _
    have hnd : (fs.map (·.name)).Nodup := by
      have : ((fs.map fun f => (f.name, f.ctx)).map (·.1)).Nodup := by rw [h.files]; exact collect_nodup _ (by simp)
      simpa [Function.comp_def] using this
    have hall : (fs.map fun f => (f.name, f.ctx))[done.length]? = some (f.name, f.ctx) := by rw [hfs]; simp
    have hlt : done.length < (collect [(start, [])] (done.flatMap (·.refs r.names))).length := by
      by_contra hge
      have hge : (collect [(start, [])] (done.flatMap (·.refs r.names))).length ≤ done.length := Nat.le_of_not_lt hge
      have hne : done ≠ [] := by
        rintro rfl
        simp [collect] at hge
      obtain ⟨g, hg, hm⟩ := h.earlier done f rest hfs hne
      have hmem : f.name ∈ (collect [(start, [])] (done.flatMap (·.refs r.names))).map (·.1) := by
        rw [mem_collect]
        obtain ⟨x, hx, hxf⟩ := List.mem_map.mp hm
        exact Or.inr (List.mem_map.mpr ⟨x, List.mem_flatMap.mpr ⟨g, hg, hx⟩, hxf⟩)
      have hsub : (collect [(start, [])] (done.flatMap (·.refs r.names))).map (·.1) <+: done.map (·.name) := by
        have h1 := hpre.map (·.1)
        have h2 : done.map (·.name) <+: (fs.map fun f => (f.name, f.ctx)).map (·.1) := by
          rw [hfs]; simp [Function.comp_def]
        exact List.prefix_of_prefix_length_le h1 h2 (by simpa using hge)
      rw [hfs, List.map_append, List.nodup_append] at hnd
      exact hnd.2.2 _ (hsub.subset hmem) f.name (by simp) rfl
    have hk : (collect [(start, [])] (done.flatMap (·.refs r.names)))[done.length]? = some (f.name, f.ctx) := by
      obtain ⟨x, hx⟩ := hpre
      rw [← hx, List.getElem?_append_left hlt] at hall
      exact hall
    rw [List.map_cons, arrange, hk]
    show SourceFile.mk f.name f.ctx f.tree :: arrange r.names (collect _ (refsList r.names f.ctx f.tree)) (done.length + 1) _ = _
    have := ih (done ++ [f]) (by rw [hfs]; simp)
    rw [List.flatMap_append, collect_append, List.length_append] at this
    rw [← collect_append] at this ⊢
    refine congrArg (f :: ·) ?_
    simpa [SourceFile.refs] using this

end Verif
