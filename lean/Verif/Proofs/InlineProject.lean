import Verif.Proofs.Inline
import Verif.Props.ProjectCombined
import Verif.Props.Without
/-!
# The combination of a project is the tree of the tokens with the include directives replaced
-/
namespace Verif
open Spec

/-- Tokens that leave nothing in the tree. -/
inductive Skips (r : Rules) (ctx : List Str) : List Tok → Prop
  | nil : Skips r ctx []
  | skip {t text toks} : r.comments = false → CommentTok t text → Skips r ctx toks → Skips r ctx (t :: toks)
  | ignored {t mid args texts semi toks} : (∀ m, ¬ InMap ctx m) → t.value ∈ r.ignore → WordTok t → Words mid args texts → Mark semi c!";" →
      Skips r ctx toks → Skips r ctx (t :: (mid ++ semi :: toks))
  | ignoredBlock {t mid args texts opening inner closing toks} : (∀ m, ¬ InMap ctx m) → t.value ∈ r.ignore → WordTok t → Words mid args texts →
      Mark opening c!"{" → Shape inner → Mark closing c!"}" → Skips r ctx toks → Skips r ctx (t :: (mid ++ opening :: (inner ++ closing :: toks)))

theorem Skips.full {r : Rules} {files : Str → Option (List Tok)} {ctx : List Str} {S : List Tok} (h : Skips r ctx S) {ds : List Directive} {ts : List Tok}
    (hf : Full r files ctx ds ts) : Full r files ctx ds (S ++ ts) := by
  induction h with
  | nil => exact hf
  | skip h1 h2 _ ih => exact .skip h1 h2 ih
  | ignored h1 h2 h3 h4 h5 _ ih =>
    have := Full.ignored h1 h2 h3 h4 h5 ih
    simpa using this
  | ignoredBlock h1 h2 h3 h4 h5 h6 h7 _ ih =>
    have := Full.ignoredBlock h1 h2 h3 h4 h5 h6 h7 ih
    simpa using this

/-- Comments are left out or stand between statements. -/
def Tidy (r : Rules) (toks : List Tok) : Prop := r.comments = false ∨ CommentsBetween toks

theorem Tidy.mono {r : Rules} {a b c : List Tok} (h : Tidy r (a ++ (b ++ c))) : Tidy r b := h.imp_right CommentsBetween.mono

theorem Tidy.texts {r : Rules} {t : Tok} {mid rest : List Tok} {args texts : List Str} (ht : WordTok t) (hw : Words mid args texts)
    (h : Tidy r (t :: (mid ++ rest))) : r.comments = true → texts = [] := by
  rcases h with h | h
  · intro h'; rw [h] at h'; cases h'
  · exact fun _ => CommentsBetween.words hw (pre := []) ht h

/-- A directive and the tokens it comes from. -/
inductive Head (r : Rules) (ctx : List Str) : Directive → List Tok → Prop
  | comment {t text} : r.comments = true → CommentTok t text → Head r ctx { directive := c!"#", line := t.line, args := [], comment := some text } [t]
  | param {m t mid args texts semi} : InMap ctx m → WordTok t → Words mid args texts → Mark semi c!";" → MapArgs m t.value args.length →
      Head r ctx { directive := t.value, line := t.line, args := args, isMapBlockParameter := true } (t :: (mid ++ [semi]))
  | simple {t mid args args' texts semi} : (∀ m, ¬ InMap ctx m) → t.value ∉ r.ignore → WordTok t → Words mid args texts → (r.comments = true → texts = []) →
      Mark semi c!";" → r.Ok ctx t.value args c!";" → StmtArgs t.value args args' → r.Found t.value args' →
      Head r ctx { directive := t.value, line := t.line, args := args' } (t :: (mid ++ [semi]))
  | block {t mid args args' texts opening b inner closing} : (∀ m, ¬ InMap ctx m) → t.value ∉ r.ignore → WordTok t → Words mid args texts →
      (r.comments = true → texts = []) → Mark opening c!"{" → r.Ok ctx t.value args c!"{" → StmtArgs t.value args args' → r.Found t.value args' →
      Conf r (enter ctx t.value) b inner → Tidy r inner → Mark closing c!"}" →
      Head r ctx { directive := t.value, line := t.line, args := args', block := some b } (t :: (mid ++ opening :: (inner ++ [closing])))

theorem Spec.Conf.skips {r : Rules} {ctx : List Str} {ds : List Directive} {toks : List Tok} (h : Conf r ctx ds toks) : ds = [] → Skips r ctx toks := by
  induction h with
  | nil => exact fun _ => .nil
  | comment => intro h; cases h
  | skip h1 h2 _ ih => exact fun h => .skip h1 h2 (ih h)
  | param => intro h; cases h
  | ignored h1 h2 h3 h4 h5 _ ih => exact fun h => .ignored h1 h2 h3 h4 h5 (ih h)
  | ignoredBlock h1 h2 h3 h4 h5 h6 h7 _ ih => exact fun h => .ignoredBlock h1 h2 h3 h4 h5 h6 h7 (ih h)
  | simple => intro h; cases h
  | block => intro h; cases h

/-- The first directive of a tree, and the tokens it comes from. -/
theorem Spec.Conf.first {r : Rules} {ctx : List Str} {all : List Directive} {toks : List Tok} (h : Conf r ctx all toks) :
    Tidy r toks → ∀ d ds, all = d :: ds → ∃ S H rest, toks = S ++ (H ++ rest) ∧ Skips r ctx S ∧ Head r ctx d H ∧ Conf r ctx ds rest ∧ Tidy r rest := by
  induction h with
  | nil => intro _ d ds e; cases e
  | @comment ctx t text ds toks h1 h2 hc _ =>
    rintro ht d ds' e
    cases e
    exact ⟨[], [t], toks, rfl, .nil, .comment h1 h2, hc, Tidy.mono (a := [t]) (c := []) (by simpa using ht)⟩
  | @skip ctx t text ds toks h1 h2 _ ih =>
    rintro ht d ds' rfl
    obtain ⟨S, H, rest, rfl, k⟩ := ih (Tidy.mono (a := [t]) (c := []) (by simpa using ht)) d ds' rfl
    exact ⟨t :: S, H, rest, rfl, .skip h1 h2 k.1, k.2⟩
  | @param ctx m t mid args texts semi ds toks h1 h2 h3 h4 h5 hc _ =>
    rintro ht d ds' e
    cases e
    exact ⟨[], t :: (mid ++ [semi]), toks, by simp, .nil, .param h1 h2 h3 h4 h5, hc,
      Tidy.mono (a := t :: (mid ++ [semi])) (c := []) (by simpa using ht)⟩
  | @ignored ctx t mid args texts semi ds toks h1 h2 h3 h4 h5 _ ih =>
    rintro ht d ds' rfl
    obtain ⟨S, H, rest, rfl, k⟩ := ih (Tidy.mono (a := t :: (mid ++ [semi])) (c := []) (by simpa using ht)) d ds' rfl
    exact ⟨t :: (mid ++ semi :: S), H, rest, by simp, .ignored h1 h2 h3 h4 h5 k.1, k.2⟩
  | @ignoredBlock ctx t mid args texts opening inner closing ds toks h1 h2 h3 h4 h5 h6 h7 _ ih =>
    rintro ht d ds' rfl
    obtain ⟨S, H, rest, rfl, k⟩ := ih (Tidy.mono (a := t :: (mid ++ opening :: (inner ++ [closing]))) (c := []) (by simpa using ht)) d ds' rfl
    exact ⟨t :: (mid ++ opening :: (inner ++ closing :: S)), H, rest, by simp, .ignoredBlock h1 h2 h3 h4 h5 h6 h7 k.1, k.2⟩
  | @simple ctx t mid args args' texts semi ds toks h1 h2 h3 h4 h5 h6 h7 h8 hc _ =>
    rintro ht d ds' e
    have htx := Tidy.texts h3 h4 ht
    have hnil : (if r.comments then commentsAt t.line texts else []) = [] := by
      by_cases hr : r.comments = true
      · rw [htx hr]; simp [commentsAt]
      · simp [hr]
    rw [hnil, List.nil_append] at e
    cases e
    exact ⟨[], t :: (mid ++ [semi]), toks, by simp, .nil, .simple h1 h2 h3 h4 htx h5 h6 h7 h8, hc,
      Tidy.mono (a := t :: (mid ++ [semi])) (c := []) (by simpa using ht)⟩
  | @block ctx t mid args args' texts opening b inner closing ds toks h1 h2 h3 h4 h5 h6 h7 h8 hb h9 hc _ _ =>
    rintro ht d ds' e
    have htx := Tidy.texts h3 h4 ht
    have hnil : (if r.comments then commentsAt t.line texts else []) = [] := by
      by_cases hr : r.comments = true
      · rw [htx hr]; simp [commentsAt]
      · simp [hr]
    rw [hnil, List.nil_append] at e
    cases e
    exact ⟨[], t :: (mid ++ opening :: (inner ++ [closing])), toks, by simp, .nil,
      .block h1 h2 h3 h4 htx h5 h6 h7 h8 hb (Tidy.mono (a := t :: (mid ++ [opening])) (c := closing :: toks) (by simpa using ht)) h9, hc,
      Tidy.mono (a := t :: (mid ++ opening :: (inner ++ [closing]))) (c := []) (by simpa using ht)⟩

/-- What is needed of the files for their include directives to be replaced by tokens. -/
structure Replaceable (r : Rules) (files : Str → Option (List Tok)) (fs : List SourceFile) : Prop where
  nodup : (fs.map (·.name)).Nodup
  conf : ∀ f ∈ fs, ∃ ts, files f.name = some ts ∧ Conf r f.ctx (unlink f.tree) ts ∧ Tidy r ts
  linked : ∀ f ∈ fs, link r.names (fs.map (·.name)) f.tree = f.tree
  context : ∀ f ∈ fs, ∀ ref ∈ f.refs r.names, ∃ g ∈ fs, g.name = ref.1 ∧ g.ctx = ref.2
  plainIncl : ∀ f ∈ fs, ∀ d, Within d f.tree → d.directive = c!"include" → d.block = none ∧ d.isMapBlockParameter = false

theorem tagDir_eq (f : Str) (d : Directive) :
    tagDir f d = ⟨d.directive, d.line, d.args, f, d.includes, d.block.map (tagFile f), d.comment, d.isMapBlockParameter⟩ := by
  obtain ⟨dd, dl, da, df, di, db, dc, dm⟩ := d
  cases db <;> rfl

theorem within_tail {d d0 : Directive} {ds : List Directive} (h : Within d ds) : Within d (d0 :: ds) := by
  cases h with
  | here h => exact .here (List.mem_cons_of_mem _ h)
  | deep h1 h2 h3 => exact .deep (List.mem_cons_of_mem _ h1) h2 h3

theorem expandsBlock_none {cs : List Config} {bl b : Option (List Directive)} (h : ExpandsBlock cs bl b) (e : bl = none) : b = none := by
  cases h with
  | none => rfl
  | some => cases e

mutual

theorem Spec.Expands.full {r : Rules} {files : Str → Option (List Tok)} {fs : List SourceFile} (hp : Replaceable r files fs) :
    ∀ {ds out : List Directive}, Expands (configsOf fs) ds out → ∀ {name : Str} {ctx : List Str} {tree : List Directive} {ts : List Tok},
      ds = tagFile name tree → link r.names (fs.map (·.name)) tree = tree → (∀ ref ∈ refsList r.names ctx tree, ∃ g ∈ fs, g.name = ref.1 ∧ g.ctx = ref.2) →
      (∀ d, Within d tree → d.directive = c!"include" → d.block = none ∧ d.isMapBlockParameter = false) →
      Conf r ctx (unlink tree) ts → Tidy r ts → ∀ {ds2 : List Directive} {ts2 : List Tok}, Full r files ctx ds2 ts2 →
      Full r files ctx (tagFile [] out ++ ds2) (ts ++ ts2)
  | _, _, .nil, name, ctx, tree, ts, e, hlk, href, hin, hc, ht, ds2, ts2, h2 => by
    cases tree with
    | cons d t => cases e
    | nil => exact (hc.skips rfl).full h2
  | _, _, .keep (d := dd) (ds := dds) (b := b) (out := out) hni hb hx, name, ctx, tree, ts, e, hlk, href, hin, hc, ht, ds2, ts2, h2 => by
    cases tree with
    | nil => cases e
    | cons d0 tree =>
      obtain ⟨e1, e2⟩ := List.cons.inj e
      obtain ⟨S, H, rest, rfl, hS, hH, hrest, htr⟩ := hc.first ht _ _ rfl
      rw [link_cons] at hlk
      obtain ⟨hl1, hl2⟩ := List.cons.inj hlk
      have hR := Expands.full hp hx (name := name) (ctx := ctx) (tree := tree) (ts := rest) e2 hl2
        (fun ref hr => href ref (List.mem_append_right _ hr)) (fun d hd => hin d (within_tail hd)) hrest htr h2
      have hB : ∀ {c : List Str} {bl : List Directive} {its : List Tok}, d0.block = some bl → c = enter ctx d0.directive → Conf r c (unlink bl) its → Tidy r its →
          ∃ bo, b = some bo ∧ Full r files c (tagFile [] bo) its := by
        intro c bl its hbl hc' hcf htd
        subst hc'
        have e3 : dd.block = some (tagFile name bl) := by rw [e1, tagDir_eq, hbl]; rfl
        have := ExpandsBlock.full hp hb (name := name) (ctx := enter ctx d0.directive) (tree := bl) (ts := its) e3
          (by
            have := congrArg Directive.block hl1
            simp only [hbl, Option.map_some, Option.some.injEq] at this
            exact this)
          (fun ref hr => href ref (List.mem_append_left _ (by rw [refs_dir, hbl]; exact List.mem_append_right _ hr)))
          (fun d hd => hin d (.deep (List.mem_cons_self ..) hbl hd)) hcf htd
        exact this
      have hnob : d0.block = none → b = none := by
        intro h0
        have e3 : dd.block = none := by rw [e1, tagDir_eq, h0]; rfl
        exact expandsBlock_none hb e3
      have hself : Within d0 (d0 :: tree) := .here (List.mem_cons_self ..)
      have e4 : tagFile [] ({ dd with block := b } :: out) ++ ds2 =
          ⟨d0.directive, d0.line, d0.args, [], d0.includes, b.map (tagFile []), d0.comment, d0.isMapBlockParameter⟩ :: (tagFile [] out ++ ds2) := by
        show tagDir [] _ :: _ = _
        rw [tagDir_eq, e1, tagDir_eq]
        rfl
      rw [e4, List.append_assoc, List.append_assoc]
      refine hS.full ?_
      have hinc : d0.directive ≠ c!"include" ∨ d0.isMapBlockParameter = true → d0.includes = none := by
        intro h0
        have := congrArg Directive.includes hl1
        simp only at this
        rw [show standsFor r.names d0.directive d0.args d0.isMapBlockParameter = [] by
          unfold standsFor
          rw [if_neg]
          rintro ⟨k1, k2⟩
          rcases h0 with h0 | h0
          · exact h0 k1
          · rw [k2] at h0; cases h0] at this
        exact this.symm
      have hincl : d0.directive = c!"include" → d0.isMapBlockParameter = false → (r.names d0.args).isSome = true → d0.includes = none ∧ r.names d0.args = some [] := by
        intro h0 h1 h3
        have h4 : d0.includes = none := by
          by_contra hne
          refine hni ⟨?_, ?_⟩
          · rw [e1, tagDir_eq]; exact h0
          · rw [e1, tagDir_eq]; exact hne
        have := congrArg Directive.includes hl1
        simp only [standsFor, h0, h1, and_self, if_true, h4] at this
        obtain ⟨l, hl⟩ := Option.isSome_iff_exists.mp h3
        rw [hl] at this ⊢
        cases l with
        | nil => exact ⟨h4, rfl⟩
        | cons a l => simp at this
      rw [setLinks_dir] at hH
      obtain ⟨d0d, d0l, d0a, d0f, d0i, d0b, d0c, d0m⟩ := d0
      simp only at hH hB hnob hinc hincl ⊢
      have hplain := hin _ hself
      simp only at hplain
      generalize hd : (Directive.mk d0d d0l d0a d0f none (d0b.map (setLinksList fun _ _ _ => none)) d0c d0m) = dx at hH
      cases hH with
      | @comment t text k1 k2 =>
        simp only [Directive.mk.injEq, Option.map_eq_none_iff] at hd
        obtain ⟨rfl, rfl, rfl, rfl, -, rfl, rfl, rfl⟩ := hd
        rw [hnob rfl, hinc (Or.inl (by simp))]
        exact .comment k1 k2 hR
      | @param m t mid args texts semi k1 k2 k3 k4 k5 =>
        simp only [Directive.mk.injEq, Option.map_eq_none_iff] at hd
        obtain ⟨rfl, rfl, rfl, rfl, -, rfl, rfl, rfl⟩ := hd
        rw [hnob rfl, hinc (Or.inr rfl)]
        have hne : t.value ≠ c!"include" := fun h0 => by have := (hplain h0).2; cases this
        have := Full.param (r := r) (files := files) k1 hne k2 k3 k4 k5 hR
        simpa using this
      | @simple t mid args args' texts semi k1 k2 k3 k4 k5 k6 k7 k8 k9 =>
        simp only [Directive.mk.injEq, Option.map_eq_none_iff] at hd
        obtain ⟨rfl, rfl, rfl, rfl, -, rfl, rfl, rfl⟩ := hd
        rw [hnob rfl]
        have hi : d0i = none := by
          by_cases h0 : t.value = c!"include"
          · exact (hincl h0 rfl (k9 h0)).1
          · exact hinc (Or.inl h0)
        rw [hi]
        have := Full.simple (r := r) (files := files) k1 k2 k3 k4 k6 k7 k8 (fun h0 => (hincl h0 rfl (k9 h0)).2) hR
        have hnil : (if r.comments then commentsAt t.line texts else []) = [] := by
          by_cases hr : r.comments = true
          · rw [k5 hr]; simp [commentsAt]
          · simp [hr]
        rw [hnil] at this
        simpa using this
      | @block t mid args args' texts opening bb inner closing k1 k2 k3 k4 k5 k6 k7 k8 k9 k10 k11 k12 =>
        simp only [Directive.mk.injEq, Option.map_eq_some_iff] at hd
        obtain ⟨rfl, rfl, rfl, rfl, -, ⟨bl, rfl, rfl⟩, rfl, rfl⟩ := hd
        have hne : t.value ≠ c!"include" := fun h0 => by have := (hplain h0).1; cases this
        obtain ⟨bo, rfl, hbo⟩ := hB rfl rfl k10 k11
        rw [hinc (Or.inl hne)]
        have := Full.block (r := r) (files := files) k1 k2 hne k3 k4 k6 k7 k8 hbo k12 hR
        have hnil : (if r.comments then commentsAt t.line texts else []) = [] := by
          by_cases hr : r.comments = true
          · rw [k5 hr]; simp [commentsAt]
          · simp [hr]
        rw [hnil] at this
        simpa using this
  | _, _, .incl (d := dd) (ds := dds) (b := b) (out1 := out1) (out := out) hi _ hn hx, name, ctx, tree, ts, e, hlk, href, hin, hc, ht, ds2, ts2, h2 => by
    cases tree with
    | nil => cases e
    | cons d0 tree =>
      obtain ⟨e1, e2⟩ := List.cons.inj e
      obtain ⟨S, H, rest, rfl, hS, hH, hrest, htr⟩ := hc.first ht _ _ rfl
      rw [link_cons] at hlk
      obtain ⟨hl1, hl2⟩ := List.cons.inj hlk
      have hR := Expands.full hp hx (name := name) (ctx := ctx) (tree := tree) (ts := rest) e2 hl2
        (fun ref hr => href ref (List.mem_append_right _ hr)) (fun d hd => hin d (within_tail hd)) hrest htr h2
      have hself : Within d0 (d0 :: tree) := .here (List.mem_cons_self ..)
      have hdir : d0.directive = c!"include" := by have := hi.1; rw [e1, tagDir_eq] at this; exact this
      obtain ⟨hblk, hmap⟩ := hin _ hself hdir
      have hincs : dd.includes = d0.includes := by rw [e1, tagDir_eq]
      have hst := congrArg Directive.includes hl1
      simp only [standsFor, hdir, hmap, and_self, if_true] at hst
      have hne := hi.2
      rw [hincs] at hne
      cases hnm : r.names d0.args with
      | none => rw [hnm] at hst; exact absurd hst.symm hne
      | some l =>
        cases l with
        | nil => rw [hnm] at hst; exact absurd hst.symm hne
        | cons f l =>
          rw [hnm] at hst
          simp only [Option.getD_some] at hst
          have hg : ∀ x ∈ f :: l, ∃ g ∈ fs, g.name = x ∧ g.ctx = ctx := by
            intro x hx'
            obtain ⟨g, hg, k1, k2⟩ := href (x, ctx) (List.mem_append_left _ (by
              rw [refs_dir]
              refine List.mem_append_left _ (List.mem_map.mpr ⟨x, ?_, rfl⟩)
              rw [standsFor, if_pos ⟨hdir, hmap⟩, hnm]
              exact hx'))
            exact ⟨g, hg, k1, k2⟩
          have hI := Inlines.full hp hn (l := f :: l) (by rw [hincs, ← hst]; rfl) hg hR
          rw [tagFile_append, List.append_assoc, List.append_assoc, List.append_assoc]
          refine hS.full ?_
          rw [setLinks_dir] at hH
          obtain ⟨d0d, d0l, d0a, d0f, d0i, d0b, d0c, d0m⟩ := d0
          simp only at hH hdir hblk hmap hnm
          subst hdir hblk hmap
          generalize hd : (Directive.mk c!"include" d0l d0a d0f none (Option.map (setLinksList fun _ _ _ => none) none) d0c false) = dx at hH
          cases hH with
          | comment => simp at hd
          | param => simp at hd
          | @simple t mid args args' texts semi k1 k2 k3 k4 k5 k6 k7 k8 k9 =>
            simp only [Directive.mk.injEq] at hd
            obtain ⟨h0, -, rfl, -⟩ := hd
            rw [StmtArgs, if_neg (by rw [← h0]; simp)] at k8
            subst k8
            have hfiles : ∀ x ∈ f :: l, ∃ ts, files x = some ts ∧ Shape ts := by
              intro x hx'
              obtain ⟨g, hg1, hg2, -⟩ := hg x hx'
              obtain ⟨ts, hts, hcf, -⟩ := hp.conf g hg1
              exact ⟨ts, by rw [← hg2]; exact hts, hcf.shape⟩
            have := Full.incl (r := r) (files := files) k1 k2 h0.symm k3 k4 k5 k6 k7 hnm (by simp) hfiles hI
            simpa using this
          | block => simp at hd

theorem Spec.ExpandsBlock.full {r : Rules} {files : Str → Option (List Tok)} {fs : List SourceFile} (hp : Replaceable r files fs) :
    ∀ {bl b : Option (List Directive)}, ExpandsBlock (configsOf fs) bl b → ∀ {name : Str} {ctx : List Str} {tree : List Directive} {ts : List Tok},
      bl = some (tagFile name tree) → link r.names (fs.map (·.name)) tree = tree →
      (∀ ref ∈ refsList r.names ctx tree, ∃ g ∈ fs, g.name = ref.1 ∧ g.ctx = ref.2) →
      (∀ d, Within d tree → d.directive = c!"include" → d.block = none ∧ d.isMapBlockParameter = false) →
      Conf r ctx (unlink tree) ts → Tidy r ts → ∃ bo, b = some bo ∧ Full r files ctx (tagFile [] bo) ts
  | _, _, .none, name, ctx, tree, ts, e, hlk, href, hin, hc, ht => by cases e
  | _, _, .some (out := out) h, name, ctx, tree, ts, e, hlk, href, hin, hc, ht => by
    have := Expands.full hp h (Option.some.inj e) hlk href hin hc ht (.nil (ctx := ctx))
    exact ⟨out, rfl, by simpa using this⟩

theorem Spec.Inlines.full {r : Rules} {files : Str → Option (List Tok)} {fs : List SourceFile} (hp : Replaceable r files fs) :
    ∀ {is : List Int} {out : List Directive}, Inlines (configsOf fs) is out → ∀ {l : List Str} {ctx : List Str},
      is = l.map (fun f => ((fs.map (·.name)).idxOf f : Int)) → (∀ f ∈ l, ∃ g ∈ fs, g.name = f ∧ g.ctx = ctx) →
      ∀ {ds2 : List Directive} {ts2 : List Tok}, Full r files ctx ds2 ts2 →
      Full r files ctx (tagFile [] out ++ ds2) (l.flatMap (fun f => (files f).getD []) ++ ts2)
  | _, _, .nil, l, ctx, e, hl, ds2, ts2, h2 => by
    cases l with
    | nil => exact h2
    | cons => cases e
  | _, _, .cons (i := i) (is := is) (c := c) (out1 := out1) (out := out) hi hx hr, l, ctx, e, hl, ds2, ts2, h2 => by
    cases l with
    | nil => cases e
    | cons f l =>
      rw [List.map_cons, List.cons.injEq] at e
      obtain ⟨e1, e2⟩ := e
      have e1 : i = (fs.map (·.name)).idxOf f := by exact_mod_cast e1
      obtain ⟨g, hg, hg1, hg2⟩ := hl f (List.mem_cons_self ..)
      have hR := Inlines.full hp hr (l := l) (ctx := ctx) e2 (fun x hx' => hl x (List.mem_cons_of_mem _ hx')) h2
      have hgi : fs[i]? = some g := by
        obtain ⟨k, hk, hk'⟩ := List.getElem_of_mem hg
        have : (fs.map (·.name)).idxOf f = k := by
          have hk2 : k < (fs.map (·.name)).length := by simpa using hk
          have := List.Nodup.idxOf_getElem hp.nodup k hk2
          simp only [List.getElem_map, hk', hg1] at this
          exact this
        rw [e1, this, ← hk']
        exact List.getElem?_eq_getElem hk
      have hcp : c.parsed = tagFile g.name g.tree := by
        rw [configsOf, List.getElem?_map, hgi] at hi
        cases hi
        rfl
      obtain ⟨ts, hts, hcf, htd⟩ := hp.conf g hg
      have := Expands.full hp hx hcp (hp.linked g hg) (hp.context g hg) (hp.plainIncl g hg) hcf htd (by rw [hg2]; exact hR)
      rw [tagFile_append, List.append_assoc, List.flatMap_cons, List.append_assoc, ← hg1, hts, ← hg2]
      exact this
end

end Verif
