import Verif.Spec.Heap
import Verif.Proofs.Combine
/-!
# C87: `Combined` leaves its receiver alone, and what the two share
-/
namespace Verif
open Verif.Spec

/-! ## More objects -/

theorem pre_get {h h' : Heap} (hp : h <+: h') {a : Nat} {o : Obj} (ha : h[a]? = some o) : h'[a]? = some o := by
  obtain ⟨t, rfl⟩ := hp
  exact List.getElem?_append_left (List.getElem?_eq_some_iff.mp ha).1 ▸ ha

theorem Spec.RInts.mono {h h' : Heap} (hp : h <+: h') {a : Option Nat} {l : Option (List Int)} (hr : RInts h a l) : RInts h' a l := by
  cases a with
  | none => exact hr
  | some a => obtain ⟨is, h1, h2⟩ := hr; exact ⟨is, pre_get hp h1, h2⟩

theorem Spec.RText.mono {h h' : Heap} (hp : h <+: h') {a : Option Nat} {l : Option Str} (hr : RText h a l) : RText h' a l := by
  cases a with
  | none => exact hr
  | some a => obtain ⟨is, h1, h2⟩ := hr; exact ⟨is, pre_get hp h1, h2⟩

theorem Spec.RCell.iff {h : Heap} {c : Cell} {d : Directive} : RCell h c d ↔
    c.directive = d.directive ∧ c.line = d.line ∧ h[c.args]? = some (.strs d.args) ∧ c.file = d.file ∧ RInts h c.includes d.includes ∧ ROpt h c.block d.block ∧
      RText h c.comment d.comment ∧ c.isMapBlockParameter = d.isMapBlockParameter := by
  cases d; rw [RCell]

theorem Spec.RCell.mono_of {h h' : Heap} (hp : h <+: h') {c : Cell} {d : Directive} (hb : ROpt h c.block d.block → ROpt h' c.block d.block) (hr : RCell h c d) : RCell h' c d := by
  rw [Spec.RCell.iff] at hr ⊢
  obtain ⟨h1, h2, h3, h4, h5, h6, h7, h8⟩ := hr
  exact ⟨h1, h2, pre_get hp h3, h4, h5.mono hp, hb h6, h7.mono hp, h8⟩

theorem Spec.RList.mono {h h' : Heap} (hp : h <+: h') (ds : List Directive) : ∀ as, RList h as ds → RList h' as ds := by
  induction ds using listInd with
  | h0 => intro as hr; rw [RList] at hr ⊢; exact hr
  | h1 d ds hb ih =>
    intro as hr
    rw [RList] at hr ⊢
    obtain ⟨a, as', c, h1, h2, h3, h4⟩ := hr
    refine ⟨a, as', c, h1, pre_get hp h2, h3.mono_of hp ?_, ih _ h4⟩
    cases hd : d.block with
    | none => rw [ROpt, ROpt]; exact id
    | some b =>
      rw [ROpt, ROpt]
      rintro ⟨x, bs, h5, h6, h7⟩
      exact ⟨x, bs, h5, pre_get hp h6, hb b hd _ h7⟩

theorem Spec.ROpt.mono {h h' : Heap} (hp : h <+: h') {b : Option Nat} {o : Option (List Directive)} (hr : ROpt h b o) : ROpt h' b o := by
  cases o with
  | none => rw [ROpt] at hr ⊢; exact hr
  | some ds =>
    rw [ROpt] at hr ⊢
    obtain ⟨x, bs, h5, h6, h7⟩ := hr
    exact ⟨x, bs, h5, pre_get hp h6, h7.mono hp⟩

theorem Spec.RCell.mono {h h' : Heap} (hp : h <+: h') {c : Cell} {d : Directive} (hr : RCell h c d) : RCell h' c d := hr.mono_of hp (Spec.ROpt.mono hp)

theorem Spec.RList.append {h : Heap} {ds ds' : List Directive} : ∀ {as as' : List Nat}, RList h as ds → RList h as' ds' → RList h (as ++ as') (ds ++ ds') := by
  induction ds with
  | nil => intro as as' h1 h2; rw [RList] at h1; subst h1; exact h2
  | cons d ds ih =>
    intro as as' h1 h2
    rw [RList] at h1
    obtain ⟨a, bs, c, rfl, h3, h4, h5⟩ := h1
    show RList h (a :: (bs ++ as')) (d :: (ds ++ ds'))
    rw [RList]
    exact ⟨a, bs ++ as', c, rfl, h3, h4, ih h5 h2⟩

/-! ## The result -/

/-- The result in memory is that of the model. -/
def HeapSim (h : Heap) (res : Res (Heap × List Nat)) : Res (List Directive) → Prop
  | .ok out => ∃ h' r, res = .ok (h', r) ∧ h <+: h' ∧ RList h' r out
  | .err e => res = .err e
  | .panic => res = .panic
  | .fuel => True

theorem HeapSim.weaken {h h' : Heap} (hp : h <+: h') {R : Res (Heap × List Nat)} {x : Res (List Directive)} (hs : HeapSim h' R x) : HeapSim h R x := by
  cases x with
  | ok o => obtain ⟨h'', r', he, hp'', hr''⟩ := hs; exact ⟨h'', r', he, hp.trans hp'', hr''⟩
  | err e => exact hs
  | panic => exact hs
  | fuel => trivial

theorem indexErrorH_eq {h : Heap} {c : Cell} {d : Directive} (hr : RCell h c d) (f : Str) (idx : Int) : indexErrorH h f c idx = indexError f d idx := by
  rw [Spec.RCell.iff] at hr
  obtain ⟨h1, h2, h3, h4, h5, h6, h7, h8⟩ := hr
  unfold indexErrorH indexError Directive.string
  rw [h1, h2, h3]
  cases hb : d.block with
  | none =>
    rw [hb, ROpt] at h6
    simp [h6]
  | some b =>
    rw [hb, ROpt] at h6
    obtain ⟨x, bs, h6, h7, h8⟩ := h6
    have hl : bs.length = b.length := by
      clear h7 hb h6
      induction b generalizing bs with
      | nil => rw [RList] at h8; subst h8; rfl
      | cons d ds ih =>
        rw [RList] at h8
        obtain ⟨a, as', c, rfl, -, -, h9⟩ := h8
        simp [ih _ h9]
    simp only [h6, h7, hl, Option.getD_some]
    by_cases hz : (b.length == 0) = true <;> simp [hz]

variable {cfgs : List HConfig} {cs : List Config} {inner : Str → List Directive → Res (List Directive)}

/-- With enough fuel the result in memory is that of the model. -/
def Settles (cfgs : List HConfig) (h : Heap) (job : Job) (x : Res (List Directive)) : Prop :=
  x ≠ .fuel → ∃ n R, (∀ m, n ≤ m → runH cfgs m h job = R) ∧ HeapSim h R x

/-- What is known of the expansion of included configs. -/
def InnerSim (cfgs : List HConfig) (h0 : Heap) (inner : Str → List Directive → Res (List Directive)) : Prop :=
  ∀ f ds as h, h0 <+: h → RList h as ds → Settles cfgs h (.list f as) (inner f ds)

/-- One job after the other. -/
theorem Settles.seq {h : Heap} {job j1 j2 : Job} {x y : Res (List Directive)} (h1 : Settles cfgs h j1 x) (h2 : ∀ h', h <+: h' → Settles cfgs h' j2 y)
    (hj : ∀ n, runH cfgs (n + 1) h job = (runH cfgs n h j1).bind fun r => (runH cfgs n r.1 j2).bind fun r' => .ok (r'.1, r.2 ++ r'.2)) :
    Settles cfgs h job (x.bind fun r => y.bind fun r' => .ok (r ++ r')) := by
  intro hne
  have hx : x ≠ .fuel := by rintro rfl; exact hne rfl
  obtain ⟨n1, R1, hn1, hs1⟩ := h1 hx
  have hstep : ∀ m, n1 ≤ m → runH cfgs (m + 1) h job = R1.bind fun r => (runH cfgs m r.1 j2).bind fun r' => .ok (r'.1, r.2 ++ r'.2) := by
    intro m hm
    rw [hj, hn1 m hm]
  cases x with
  | ok out =>
    obtain ⟨h', r, rfl, hp, hr⟩ := hs1
    have hy : y ≠ .fuel := by rintro rfl; exact hne rfl
    obtain ⟨n2, R2, hn2, hs2⟩ := h2 h' hp hy
    refine ⟨max n1 n2 + 1, R2.bind fun r' => .ok (r'.1, r ++ r'.2), fun m hm => ?_, ?_⟩
    · obtain ⟨m, rfl⟩ : ∃ k, m = k + 1 := ⟨m - 1, by omega⟩
      rw [hstep m (by omega)]
      simp only [Res.bind]
      rw [hn2 m (by omega)]
    · cases y with
      | ok out' =>
        obtain ⟨h'', r', rfl, hp', hr'⟩ := hs2
        exact ⟨h'', r ++ r', rfl, hp.trans hp', (hr.mono hp').append hr'⟩
      | err e => cases hs2; rfl
      | panic => cases hs2; rfl
      | fuel => exact absurd rfl hy
  | err e =>
    cases hs1
    refine ⟨n1 + 1, .err e, fun m hm => ?_, rfl⟩
    obtain ⟨m, rfl⟩ : ∃ k, m = k + 1 := ⟨m - 1, by omega⟩
    rw [hstep m (by omega)]; rfl
  | panic =>
    cases hs1
    refine ⟨n1 + 1, .panic, fun m hm => ?_, rfl⟩
    obtain ⟨m, rfl⟩ : ∃ k, m = k + 1 := ⟨m - 1, by omega⟩
    rw [hstep m (by omega)]; rfl
  | fuel => exact absurd rfl hx

/-- A job that is done at once. -/
theorem Settles.now {h : Heap} {job : Job} {R : Res (Heap × List Nat)} {x : Res (List Directive)} (hj : ∀ n, runH cfgs (n + 1) h job = R) (hs : HeapSim h R x) :
    Settles cfgs h job x := fun _ => by
  refine ⟨1, R, fun m hm => ?_, hs⟩
  obtain ⟨m, rfl⟩ : ∃ k, m = k + 1 := ⟨m - 1, by omega⟩
  exact hj m

/-- A job that goes on as another one. -/
theorem Settles.step {h : Heap} {job j1 : Job} {x : Res (List Directive)} (h1 : Settles cfgs h j1 x) (hj : ∀ n, runH cfgs (n + 1) h job = runH cfgs n h j1) :
    Settles cfgs h job x := fun hne => by
  obtain ⟨n1, R1, hn1, hs1⟩ := h1 hne
  refine ⟨n1 + 1, R1, fun m hm => ?_, hs1⟩
  obtain ⟨m, rfl⟩ : ∃ k, m = k + 1 := ⟨m - 1, by omega⟩
  rw [hj, hn1 m (by omega)]

theorem runH_incl {h0 : Heap} (hc : List.Forall₂ (RConfig h0) cfgs cs) (hi : InnerSim cfgs h0 inner) {c : Cell} {d : Directive} (f : Str) (idxs : List Int) :
    ∀ h, h0 <+: h → RCell h c d → Settles cfgs h (.incl f c idxs) (expandIncludes cs inner f d idxs) := by
  induction idxs with
  | nil => exact fun h _ _ => .now (fun n => by rw [runH]) ⟨h, [], rfl, List.prefix_rfl, by rw [RList]⟩
  | cons idx idxs ih =>
    intro h hp hr
    have hlen : cfgs.length = cs.length := hc.length_eq
    rw [expandIncludes]
    by_cases hge : idx ≥ cs.length
    · exact .now (fun n => by rw [runH, hlen, if_pos hge, indexErrorH_eq hr]) (by rw [if_pos hge]; rfl)
    · rw [if_neg hge]
      by_cases hneg : idx < 0
      · exact .now (fun n => by rw [runH, hlen, if_neg hge, if_pos hneg]) (by rw [if_pos hneg]; rfl)
      · have hlt : idx.toNat < cs.length := by omega
        have hlt' : idx.toNat < cfgs.length := by omega
        have hcfg : RConfig h0 cfgs[idx.toNat] cs[idx.toNat] := (List.forall₂_iff_get.mp hc).2 _ hlt' hlt
        obtain ⟨as, ha, hl⟩ := hcfg.parsed
        rw [if_neg hneg, List.getElem?_eq_getElem hlt]
        refine Settles.seq (hi cs[idx.toNat].file cs[idx.toNat].parsed as h hp (hl.mono hp)) (fun h' hp' => ih h' (hp.trans hp') (hr.mono hp')) fun n => ?_
        rw [runH, hlen, if_neg hge, if_neg hneg, List.getElem?_eq_getElem hlt']
        simp only [pre_get hp ha, hcfg.file]

theorem runH_emit {h0 : Heap} (hc : List.Forall₂ (RConfig h0) cfgs cs) (hi : InnerSim cfgs h0 inner) {c : Cell} {d : Directive} (f : Str) {h : Heap} (hp : h0 <+: h)
    (hr : RCell h c d) : Settles cfgs h (.emit f c) (if !d.isInclude then .ok [d] else expandIncludes cs inner f d (d.includes.getD [])) := by
  have hr' := Spec.RCell.iff.mp hr
  obtain ⟨h1, -, -, -, h5, -, -, -⟩ := hr'
  have hput : HeapSim h (.ok (h ++ [.dir c], [h.length])) (.ok [d]) := by
    refine ⟨_, _, rfl, List.prefix_append _ _, ?_⟩
    rw [RList]
    refine ⟨_, [], c, rfl, by simp, hr.mono (List.prefix_append _ _), by rw [RList]⟩
  by_cases hn : c.directive = c!"include"
  · cases hi' : c.includes with
    | none =>
      rw [hi'] at h5
      have : d.isInclude = false := by rw [Directive.isInclude, show d.includes = none from h5]; simp
      rw [this]
      exact .now (fun n => by rw [runH, if_pos hn, hi']) hput
    | some is =>
      rw [hi'] at h5
      obtain ⟨l, h6, h7⟩ := h5
      have : d.isInclude = true := by rw [Directive.isInclude, h7, ← h1, hn]; rfl
      rw [this, h7]
      refine Settles.step (runH_incl hc hi f l h hp hr) fun n => ?_
      rw [runH, if_pos hn, hi']
      simp only [h6]
  · have : d.isInclude = false := by
      rw [Directive.isInclude, ← h1]
      simp [hn]
    rw [this]
    exact .now (fun n => by rw [runH, if_neg hn]) hput

theorem runH_list {h0 : Heap} (hc : List.Forall₂ (RConfig h0) cfgs cs) (hi : InnerSim cfgs h0 inner) (f : Str) (ds : List Directive) :
    ∀ as h, h0 <+: h → RList h as ds → Settles cfgs h (.list f as) (expandList cs inner f ds) := by
  induction ds using listInd with
  | h0 =>
    intro as h hp hr
    rw [RList] at hr
    subst hr
    exact .now (fun n => by rw [runH]) ⟨h, [], rfl, List.prefix_rfl, by rw [RList]⟩
  | h1 d ds hb ih =>
    intro as h hp hr
    rw [RList] at hr
    obtain ⟨a, as', c, rfl, ha, hcell, hl⟩ := hr
    rw [expandList_cons]
    refine Settles.seq (j1 := .one f a) (j2 := .list f as') ?_ (fun h' hp' => ih as' h' (hp.trans hp') (hl.mono hp')) fun n => by rw [runH]
    rw [expandDir_eq]
    have hcell' := Spec.RCell.iff.mp hcell
    obtain ⟨h1, h2, h3, h4, h5, h6, h7, h8⟩ := hcell'
    cases hd : d.block with
    | none =>
      rw [hd, ROpt] at h6
      have hdd : ({ d with block := none } : Directive) = d := by cases d; simp only at hd; subst hd; rfl
      simp only [expandOpt, Res.bind]
      rw [hdd]
      refine Settles.step (runH_emit hc hi f hp hcell) fun n => ?_
      rw [runH]
      simp only [ha, h6]
    | some b =>
      rw [hd, ROpt] at h6
      obtain ⟨x, bs, h6, h9, h10⟩ := h6
      have hbs := hb b hd bs h hp h10
      have hstep : ∀ n, runH cfgs (n + 1) h (.one f a) = (runH cfgs n h (.list f bs)).bind fun r => runH cfgs n (r.1 ++ [.ptrs r.2]) (.emit f { c with block := some r.1.length }) := by
        intro n
        rw [runH]
        simp only [ha, h6, h9]
      intro hne
      have hx : expandList cs inner f b ≠ .fuel := by
        intro hx
        rw [expandOpt, hx] at hne
        exact hne rfl
      obtain ⟨n1, R1, hn1, hs1⟩ := hbs hx
      rw [expandOpt] at hne ⊢
      cases hout : expandList cs inner f b with
      | ok out =>
        rw [hout] at hs1 hne
        obtain ⟨h', r, rfl, hp', hr'⟩ := hs1
        have hp2 : h <+: h' ++ [.ptrs r] := hp'.trans (List.prefix_append _ _)
        have hcell2 : RCell (h' ++ [.ptrs r]) { c with block := some h'.length } { d with block := some out } := by
          rw [Spec.RCell.iff]
          refine ⟨h1, h2, pre_get hp2 h3, h4, h5.mono hp2, ?_, h7.mono hp2, h8⟩
          rw [ROpt]
          exact ⟨_, r, rfl, by simp, hr'.mono (List.prefix_append _ _)⟩
        obtain ⟨n2, R2, hn2, hs2⟩ := runH_emit hc hi f (hp.trans hp2) hcell2 hne
        refine ⟨max n1 n2 + 1, R2, fun m hm => ?_, ?_⟩
        · obtain ⟨m, rfl⟩ : ∃ k, m = k + 1 := ⟨m - 1, by omega⟩
          rw [hstep, hn1 m (by omega)]
          exact hn2 m (by omega)
        · exact hs2.weaken hp2
      | err e =>
        rw [hout] at hs1
        cases hs1
        refine ⟨n1 + 1, .err e, fun m hm => ?_, rfl⟩
        obtain ⟨m, rfl⟩ : ∃ k, m = k + 1 := ⟨m - 1, by omega⟩
        rw [hstep, hn1 m (by omega)]; rfl
      | panic =>
        rw [hout] at hs1
        cases hs1
        refine ⟨n1 + 1, .panic, fun m hm => ?_, rfl⟩
        obtain ⟨m, rfl⟩ : ∃ k, m = k + 1 := ⟨m - 1, by omega⟩
        rw [hstep, hn1 m (by omega)]; rfl
      | fuel => exact absurd hout hx

theorem runH_settles {h0 : Heap} (hc : List.Forall₂ (RConfig h0) cfgs cs) : ∀ fuel, InnerSim cfgs h0 (performIncludes cs fuel)
  | 0 => fun f ds as h _ _ hne => absurd rfl hne
  | fuel + 1 => fun f ds as h hp hr => runH_list hc (runH_settles hc fuel) f ds as h hp hr

/-! ## The objects of the result -/

theorem Spec.Owns.mono {h h' : Heap} (hp : h <+: h') {as l : List Nat} (ho : Owns h as l) : Owns h' as l := by
  induction ho with
  | nil => exact .nil
  | leaf h1 h2 _ ih => exact .leaf (pre_get hp h1) h2 ih
  | block h1 h2 h3 _ _ ih1 ih2 => exact .block (pre_get hp h1) h2 (pre_get hp h3) ih1 ih2

theorem Spec.Owns.append {h : Heap} {as as' l l' : List Nat} (ho : Owns h as l) (ho' : Owns h as' l') : Owns h (as ++ as') (l ++ l') := by
  induction ho with
  | nil => exact ho'
  | leaf h1 h2 _ ih => exact .leaf h1 h2 ih
  | block h1 h2 h3 hb _ _ ih2 =>
    rw [List.append_assoc]
    exact .block h1 h2 h3 hb ih2

/-- The directives at `r` and their blocks are objects of their own, with addresses from `lo` on. -/
def New (h : Heap) (lo : Nat) (r : List Nat) : Prop := ∃ l, Owns h r l ∧ l.Nodup ∧ ∀ x ∈ l, lo ≤ x ∧ x < h.length

theorem New.append {h1 h2 : Heap} (hp : h1 <+: h2) {lo : Nat} {r r' : List Nat} (n1 : New h1 lo r) (n2 : New h2 h1.length r') (hlo : lo ≤ h1.length) : New h2 lo (r ++ r') := by
  obtain ⟨l1, o1, d1, b1⟩ := n1
  obtain ⟨l2, o2, d2, b2⟩ := n2
  have hle := hp.length_le
  refine ⟨l1 ++ l2, (o1.mono hp).append o2, List.nodup_append.mpr ⟨d1, d2, fun x hx y hy => ?_⟩, fun x hx => ?_⟩
  · have := b1 x hx; have := b2 y hy; omega
  · rcases List.mem_append.mp hx with hx | hx
    · have := b1 x hx; omega
    · have := b2 x hx; omega

theorem New.weaken {h : Heap} {lo lo' : Nat} {r : List Nat} (n : New h lo r) (hlo : lo' ≤ lo) : New h lo' r := by
  obtain ⟨l, o, d, b⟩ := n
  exact ⟨l, o, d, fun x hx => ⟨by have := b x hx; omega, (b x hx).2⟩⟩

/-- The block of the directive that is to be sent is new. -/
def EmitPre (lo : Nat) (h : Heap) (c : Cell) : Prop :=
  match c.block with
  | none => True
  | some b => ∃ bs l, h[b]? = some (.ptrs bs) ∧ Owns h bs l ∧ (b :: l).Nodup ∧ ∀ x ∈ b :: l, lo ≤ x ∧ x < h.length

theorem emit_new {lo : Nat} {h : Heap} {c : Cell} (he : EmitPre lo h c) (hlo : lo ≤ h.length) : New (h ++ [.dir c]) lo [h.length] := by
  have hp : h <+: h ++ [.dir c] := List.prefix_append _ _
  have hg : (h ++ [Obj.dir c])[h.length]? = some (.dir c) := by simp
  unfold EmitPre at he
  cases hb : c.block with
  | none => exact ⟨[h.length], .leaf hg hb .nil, by simp, by simp; omega⟩
  | some b =>
    rw [hb] at he
    obtain ⟨bs, l, h1, h2, h3, h4⟩ := he
    refine ⟨h.length :: b :: l ++ [], .block hg hb (pre_get hp h1) (h2.mono hp) .nil, ?_, ?_⟩
    · rw [List.append_nil, List.nodup_cons]
      exact ⟨fun hm => by have := h4 _ hm; omega, h3⟩
    · intro x hx
      rw [List.append_nil] at hx
      rw [List.length_append]
      rcases List.mem_cons.mp hx with rfl | hx
      · simp; omega
      · have := h4 x hx; simp; omega

theorem runH_new (cfgs : List HConfig) : ∀ (n : Nat) (h : Heap) (job : Job) (h' : Heap) (r : List Nat), runH cfgs n h job = .ok (h', r) →
    h <+: h' ∧ ∀ lo, lo ≤ h.length → (∀ f c, job = .emit f c → EmitPre lo h c) → New h' lo r := by
  intro n
  induction n with
  | zero => intro h job h' r hr; rw [runH] at hr; cases hr
  | succ n ih =>
    intro h job h' r hr
    -- two jobs one after the other
    have hseq : ∀ j1 j2, (∀ f c, j1 ≠ .emit f c) → (∀ f c, j2 ≠ .emit f c) →
        ((runH cfgs n h j1).bind fun r => (runH cfgs n r.1 j2).bind fun r' => .ok (r'.1, r.2 ++ r'.2)) = .ok (h', r) →
        h <+: h' ∧ ∀ lo, lo ≤ h.length → New h' lo r := by
      intro j1 j2 hj1 hj2 hr
      cases h1 : runH cfgs n h j1 with
      | ok r1 =>
        obtain ⟨h1', r1⟩ := r1
        rw [h1] at hr
        simp only [Res.bind] at hr
        cases h2 : runH cfgs n h1' j2 with
        | ok r2 =>
          obtain ⟨h2', r2⟩ := r2
          rw [h2] at hr
          cases hr
          obtain ⟨p1, n1⟩ := ih _ _ _ _ h1
          obtain ⟨p2, n2⟩ := ih _ _ _ _ h2
          refine ⟨p1.trans p2, fun lo hlo => ?_⟩
          have := p1.length_le
          exact (n1 lo hlo fun f c he => absurd he (hj1 f c)).append p2 (n2 _ (Nat.le_refl _) fun f c he => absurd he (hj2 f c)) (by omega)
        | err e => rw [h2] at hr; cases hr
        | panic => rw [h2] at hr; cases hr
        | fuel => rw [h2] at hr; cases hr
      | err e => rw [h1] at hr; cases hr
      | panic => rw [h1] at hr; cases hr
      | fuel => rw [h1] at hr; cases hr
    have hnil : h <+: h ∧ ∀ lo, lo ≤ h.length → New h lo [] := ⟨List.prefix_rfl, fun lo _ => ⟨[], .nil, by simp, by simp⟩⟩
    cases job with
    | list f as =>
      cases as with
      | nil => rw [runH] at hr; cases hr; exact ⟨hnil.1, fun lo hlo _ => hnil.2 lo hlo⟩
      | cons a as =>
        rw [runH] at hr
        obtain ⟨h1, h2⟩ := hseq _ _ (by simp) (by simp) hr
        exact ⟨h1, fun lo hlo _ => h2 lo hlo⟩
    | one f a =>
      rw [runH] at hr
      cases ha : h[a]? with
      | none => rw [ha] at hr; cases hr
      | some o =>
        rw [ha] at hr
        cases o with
        | dir c =>
          simp only at hr
          cases hb : c.block with
          | none =>
            rw [hb] at hr
            obtain ⟨h1, h2⟩ := ih _ _ _ _ hr
            refine ⟨h1, fun lo hlo _ => h2 lo hlo fun f' c' he => ?_⟩
            cases he
            unfold EmitPre
            rw [hb]; trivial
          | some b =>
            rw [hb] at hr
            simp only at hr
            cases hbs : h[b]? with
            | none => rw [hbs] at hr; cases hr
            | some o =>
              rw [hbs] at hr
              cases o with
              | ptrs as =>
                simp only at hr
                cases h1 : runH cfgs n h (.list f as) with
                | ok r1 =>
                  obtain ⟨h1', r1⟩ := r1
                  rw [h1] at hr
                  simp only [Res.bind] at hr
                  obtain ⟨p1, n1⟩ := ih _ _ _ _ h1
                  obtain ⟨p2, n2⟩ := ih _ _ _ _ hr
                  have hle := p1.length_le
                  have hp : h1' <+: h1' ++ [.ptrs r1] := List.prefix_append _ _
                  refine ⟨p1.trans (hp.trans p2), fun lo hlo _ => n2 lo (by rw [List.length_append]; omega) fun f' c' he => ?_⟩
                  cases he
                  obtain ⟨l, o1, d1, b1⟩ := n1 lo hlo (by simp)
                  refine ⟨r1, l, by simp, o1.mono hp, ?_, ?_⟩
                  · rw [List.nodup_cons]
                    exact ⟨fun hm => by have := b1 _ hm; omega, d1⟩
                  · intro x hx
                    rw [List.length_append]
                    rcases List.mem_cons.mp hx with rfl | hx
                    · simp; omega
                    · have := b1 x hx; simp; omega
                | err e => rw [h1] at hr; cases hr
                | panic => rw [h1] at hr; cases hr
                | fuel => rw [h1] at hr; cases hr
              | _ => cases hr
        | _ => cases hr
    | emit f c =>
      have hput : (h ++ [Obj.dir c], [h.length]) = (h', r) → h <+: h' ∧ ∀ lo, lo ≤ h.length → (∀ f' c', Job.emit f c = .emit f' c' → EmitPre lo h c') → New h' lo r := by
        intro he
        cases he
        exact ⟨List.prefix_append _ _, fun lo hlo hpre => emit_new (hpre f c rfl) hlo⟩
      rw [runH] at hr
      split at hr
      · cases hi : c.includes with
        | none => rw [hi] at hr; exact hput (Res.ok.inj hr)
        | some is =>
          rw [hi] at hr
          simp only at hr
          cases his : h[is]? with
          | none => rw [his] at hr; cases hr
          | some o =>
            rw [his] at hr
            cases o with
            | ints idxs =>
              obtain ⟨h1, h2⟩ := ih _ _ _ _ hr
              exact ⟨h1, fun lo hlo _ => h2 lo hlo (by simp)⟩
            | _ => cases hr
      · exact hput (Res.ok.inj hr)
    | incl f c idxs =>
      cases idxs with
      | nil => rw [runH] at hr; cases hr; exact ⟨hnil.1, fun lo hlo _ => hnil.2 lo hlo⟩
      | cons idx idxs =>
        rw [runH] at hr
        split at hr
        · cases hr
        · split at hr
          · cases hr
          · cases hcfg : cfgs[idx.toNat]? with
            | none => rw [hcfg] at hr; cases hr
            | some cfg =>
              rw [hcfg] at hr
              simp only at hr
              cases hps : h[cfg.parsed]? with
              | none => rw [hps] at hr; cases hr
              | some o =>
                rw [hps] at hr
                cases o with
                | ptrs as =>
                  obtain ⟨h1, h2⟩ := hseq _ _ (by simp) (by simp) hr
                  exact ⟨h1, fun lo hlo _ => h2 lo hlo⟩
                | _ => cases hr

/-! ## Copies -/

/-- No object refers to an address where there is nothing. -/
def HeapClosed (h : Heap) : Prop :=
  (∀ (a : Nat) (c : Cell), h[a]? = some (.dir c) → ∀ b, c.block = some b → b < h.length) ∧ ∀ (a : Nat) (l : List Nat), h[a]? = some (.ptrs l) → ∀ x ∈ l, x < h.length

/-- The fields are those of an object that was there before, except for the block. -/
def IsCopy (h : Heap) (c : Cell) : Prop := ∃ (a : Nat) (c0 : Cell), h[a]? = some (.dir c0) ∧ c = { c0 with block := c.block }

/-- The job is about objects that were there before. -/
def Job.Old (h0 : Heap) : Job → Prop
  | .list _ as => ∀ a ∈ as, a < h0.length
  | .one _ a => a < h0.length
  | .emit _ c => IsCopy h0 c
  | .incl _ _ _ => True

theorem old_get {h h' : Heap} (hp : h <+: h') {a : Nat} (ha : a < h.length) : h'[a]? = h[a]? := by
  obtain ⟨t, rfl⟩ := hp
  exact List.getElem?_append_left ha

theorem append_get {h : Heap} {o o' : Obj} {x : Nat} (hx : h.length ≤ x) (hg : (h ++ [o])[x]? = some o') : o' = o := by
  rw [List.getElem?_append_right hx] at hg
  cases hk : x - h.length with
  | zero => rw [hk] at hg; simpa using hg.symm
  | succ k => rw [hk] at hg; simp at hg

theorem runH_copy {cfgs : List HConfig} {h0 : Heap} (hcl : HeapClosed h0) (hcf : ∀ cfg ∈ cfgs, cfg.parsed < h0.length) :
    ∀ (n : Nat) (h : Heap) (job : Job) (h' : Heap) (r : List Nat), h0 <+: h → job.Old h0 → runH cfgs n h job = .ok (h', r) →
      ∀ x, h.length ≤ x → ∀ c, h'[x]? = some (.dir c) → IsCopy h0 c := by
  intro n
  induction n with
  | zero => intro h job h' r _ _ hr; rw [runH] at hr; cases hr
  | succ n ih =>
    intro h job h' r hp hold hr
    have hseq : ∀ j1 j2, j1.Old h0 → j2.Old h0 →
        ((runH cfgs n h j1).bind fun r => (runH cfgs n r.1 j2).bind fun r' => .ok (r'.1, r.2 ++ r'.2)) = .ok (h', r) →
        ∀ x, h.length ≤ x → ∀ c, h'[x]? = some (.dir c) → IsCopy h0 c := by
      intro j1 j2 hj1 hj2 hr
      cases h1 : runH cfgs n h j1 with
      | ok r1 =>
        obtain ⟨h1', r1⟩ := r1
        rw [h1] at hr
        simp only [Res.bind] at hr
        cases h2 : runH cfgs n h1' j2 with
        | ok r2 =>
          obtain ⟨h2', r2⟩ := r2
          rw [h2] at hr
          cases hr
          have p1 := (runH_new cfgs _ _ _ _ _ h1).1
          have p2 := (runH_new cfgs _ _ _ _ _ h2).1
          intro x hx c hc
          by_cases hlt : x < h1'.length
          · exact ih _ _ _ _ hp hj1 h1 x hx c (by rw [← old_get p2 hlt]; exact hc)
          · exact ih _ _ _ _ (hp.trans p1) hj2 h2 x (by omega) c hc
        | err e => rw [h2] at hr; cases hr
        | panic => rw [h2] at hr; cases hr
        | fuel => rw [h2] at hr; cases hr
      | err e => rw [h1] at hr; cases hr
      | panic => rw [h1] at hr; cases hr
      | fuel => rw [h1] at hr; cases hr
    have hnil : ∀ x, h.length ≤ x → ∀ c, h[x]? = some (.dir c) → IsCopy h0 c := by
      intro x hx c hc
      have := (List.getElem?_eq_some_iff.mp hc).1
      omega
    cases job with
    | list f as =>
      cases as with
      | nil => rw [runH] at hr; cases hr; exact hnil
      | cons a as =>
        rw [runH] at hr
        exact hseq (.one f a) (.list f as) (hold a (by simp)) (fun x hx => hold x (List.mem_cons_of_mem _ hx)) hr
    | one f a =>
      rw [runH, old_get hp hold] at hr
      cases ha : h0[a]? with
      | none => rw [ha] at hr; cases hr
      | some o =>
        rw [ha] at hr
        cases o with
        | dir c =>
          simp only at hr
          cases hb : c.block with
          | none =>
            rw [hb] at hr
            exact ih h (.emit f c) _ _ hp ⟨a, c, ha, by cases c; rfl⟩ hr
          | some b =>
            rw [hb] at hr
            simp only at hr
            rw [old_get hp (hcl.1 a c ha b hb)] at hr
            cases hbs : h0[b]? with
            | none => rw [hbs] at hr; cases hr
            | some o =>
              rw [hbs] at hr
              cases o with
              | ptrs as =>
                simp only at hr
                cases h1 : runH cfgs n h (.list f as) with
                | ok r1 =>
                  obtain ⟨h1', r1⟩ := r1
                  rw [h1] at hr
                  simp only [Res.bind] at hr
                  have p1 := (runH_new cfgs _ _ _ _ _ h1).1
                  have p2 := (runH_new cfgs _ _ _ _ _ hr).1
                  have hp' : h1' <+: h1' ++ [.ptrs r1] := List.prefix_append _ _
                  intro x hx c' hc'
                  by_cases hlt : x < (h1' ++ [Obj.ptrs r1]).length
                  · rw [old_get p2 hlt] at hc'
                    by_cases hlt' : x < h1'.length
                    · exact ih h (.list f as) _ _ hp (hcl.2 b as hbs) h1 x hx c' (by rw [← old_get hp' hlt']; exact hc')
                    · have := append_get (by omega) hc'
                      cases this
                  · exact ih _ (.emit f { c with block := some h1'.length }) _ _ (hp.trans (p1.trans hp')) ⟨a, c, ha, rfl⟩ hr x (by omega) c' hc'
                | err e => rw [h1] at hr; cases hr
                | panic => rw [h1] at hr; cases hr
                | fuel => rw [h1] at hr; cases hr
              | _ => cases hr
        | _ => cases hr
    | emit f c =>
      have hput : (h ++ [Obj.dir c], [h.length]) = (h', r) → ∀ x, h.length ≤ x → ∀ c, h'[x]? = some (.dir c) → IsCopy h0 c := by
        intro he
        cases he
        intro x hx c' hc'
        have := append_get hx hc'
        cases this
        exact hold
      rw [runH] at hr
      split at hr
      · cases hi : c.includes with
        | none => rw [hi] at hr; exact hput (Res.ok.inj hr)
        | some is =>
          rw [hi] at hr
          simp only at hr
          cases his : h[is]? with
          | none => rw [his] at hr; cases hr
          | some o =>
            rw [his] at hr
            cases o with
            | ints idxs => exact ih h (.incl f c idxs) _ _ hp trivial hr
            | _ => cases hr
      · exact hput (Res.ok.inj hr)
    | incl f c idxs =>
      cases idxs with
      | nil => rw [runH] at hr; cases hr; exact hnil
      | cons idx idxs =>
        rw [runH] at hr
        split at hr
        · cases hr
        · split at hr
          · cases hr
          · cases hcfg : cfgs[idx.toNat]? with
            | none => rw [hcfg] at hr; cases hr
            | some cfg =>
              rw [hcfg] at hr
              simp only at hr
              rw [old_get hp (hcf cfg (List.mem_of_getElem? hcfg))] at hr
              cases hps : h0[cfg.parsed]? with
              | none => rw [hps] at hr; cases hr
              | some o =>
                rw [hps] at hr
                cases o with
                | ptrs as => exact hseq (.list cfg.file as) (.incl f c idxs) (hcl.2 _ _ hps) trivial hr
                | _ => cases hr

/-! ## C87 -/

theorem Spec.RConfig.mono {h h' : Heap} (hp : h <+: h') {c : HConfig} {cfg : Config} (hr : RConfig h c cfg) : RConfig h' c cfg := by
  refine ⟨hr.file, hr.status, ?_, ?_⟩
  · have := hr.errors
    revert this
    cases c.errors with
    | none => exact id
    | some e => exact pre_get hp
  · obtain ⟨as, h1, h2⟩ := hr.parsed
    exact ⟨as, pre_get hp h1, h2.mono hp⟩

theorem Spec.RPayload.mono {h h' : Heap} (hp : h <+: h') {c : HPayload} {p : Payload} (hr : RPayload h c p) : RPayload h' c p := by
  refine ⟨hr.status, ?_, hr.config.imp fun _ _ => Spec.RConfig.mono hp⟩
  have := hr.errors
  revert this
  cases c.errors with
  | none => exact id
  | some e => exact pre_get hp

theorem configs_errors {h : Heap} {cfgs : List HConfig} {cs : List Config} (hc : List.Forall₂ (RConfig h) cfgs cs) :
    cfgs.flatMap (·.errorList h) = cs.flatMap (·.errors) ∧ (cfgs.any fun c => c.status == c!"failed") = cs.any fun c => c.status == c!"failed" := by
  induction hc with
  | nil => exact ⟨rfl, rfl⟩
  | cons h1 _ ih =>
    rw [List.flatMap_cons, List.flatMap_cons, List.any_cons, List.any_cons, ih.1, ih.2, h1.status]
    refine ⟨?_, rfl⟩
    congr 1
    have := h1.errors
    unfold HConfig.errorList
    revert this
    cases HConfig.errors _ with
    | none => exact fun h => h.symm
    | some e => intro hx; simp only at hx ⊢; rw [hx]

/-- C87.  If the sequential model returns a payload, so does `Combined`, and (1) no object that was there before is changed, so that the receiver is what it was; (2) the result is
the payload of the model; (3) its directives, the arrays of their blocks and of the config are new objects, each of them in one place only; (4) but every directive shares its
arguments, includes and comment with a directive that was there before. -/
theorem C87 {h : Heap} {P : HPayload} {p q : Payload} (hr : RPayload h P p) (hne : p.config ≠ []) {fuel : Nat} (hq : combined fuel p = .ok q) :
    ∃ n h' Q, (∀ m, n ≤ m → combinedH m h P = .ok (h', some Q)) ∧ h <+: h' ∧ RPayload h' P p ∧ RPayload h' Q q ∧
      ∃ C r l, Q.config = [C] ∧ h'[C.parsed]? = some (.ptrs r) ∧ Owns h' r l ∧ (C.parsed :: l).Nodup ∧ (∀ x ∈ C.parsed :: l, h.length ≤ x) ∧
        (HeapClosed h → ∀ x ∈ l, ∀ c, h'[x]? = some (.dir c) → IsCopy h c) := by
  have hconf := hr.config
  cases hP : P.config with
  | nil =>
    rw [hP] at hconf
    cases hconf' : p.config with
    | nil => exact absurd hconf' hne
    | cons a b => rw [hconf'] at hconf; cases hconf
  | cons c0 crest =>
    cases hp0 : p.config with
    | nil => exact absurd hp0 hne
    | cons k0 krest =>
      have hcc := hconf
      rw [hP, hp0] at hcc
      cases hcc with
      | cons hk0 hkrest =>
        obtain ⟨as, ha, hl⟩ := hk0.parsed
        unfold combined at hq
        rw [hp0] at hq
        simp only at hq
        cases hpi : performIncludes (k0 :: krest) fuel k0.file k0.parsed with
        | ok out =>
          rw [hpi] at hq
          simp only [Res.bind] at hq
          -- the heap with the array of errors
          obtain ⟨h1, e1, hh1, hp1, herr⟩ : ∃ (h1 : Heap) (e1 : Nat), (∀ m, combinedH m h P = match h1[c0.parsed]? with
              | some (.ptrs as) =>
                (runH P.config m h1 (.list c0.file as)).bind fun r =>
                  .ok (r.1 ++ [.cfgErrors (P.config.flatMap (·.errorList h)), .ptrs r.2],
                    some { status := if P.status == [] then c!"ok" else P.status
                           errors := some e1
                           config := [{
                            file := c0.file
                            status := if P.config.any (fun c => c.status == c!"failed") then c!"failed" else c!"ok"
                            errors := some r.1.length
                            parsed := r.1.length + 1 }] })
              | _ => .panic) ∧ h <+: h1 ∧ h1[e1]? = some (.payErrors p.errors) := by
            have he := hr.errors
            cases hE : P.errors with
            | none =>
              rw [hE] at he
              refine ⟨h ++ [.payErrors []], h.length, fun m => ?_, List.prefix_append _ _, ?_⟩
              · unfold combinedH
                rw [hP, hE]
                rfl
              · rw [show p.errors = [] from he]; simp
            | some e =>
              rw [hE] at he
              refine ⟨h, e, fun m => ?_, List.prefix_rfl, he⟩
              unfold combinedH
              rw [hP, hE]
              rfl
          have hconf1 : List.Forall₂ (RConfig h1) P.config p.config := hconf.imp fun _ _ => Spec.RConfig.mono hp1
          have hset := runH_settles hconf1 fuel k0.file k0.parsed as h1 List.prefix_rfl (hl.mono hp1)
          rw [hp0, hpi] at hset
          obtain ⟨n, R, hn, h2, r, rfl, hp2, hr2⟩ := hset (by simp)
          have hrun := hn n (Nat.le_refl _)
          obtain ⟨-, hnew⟩ := runH_new _ _ _ _ _ _ hrun
          obtain ⟨l, ho, hd, hb⟩ := hnew h1.length (Nat.le_refl _) (by simp)
          have hle1 := hp1.length_le
          have hp3 : h2 <+: h2 ++ [.cfgErrors (P.config.flatMap (·.errorList h)), .ptrs r] := List.prefix_append _ _
          have hall := hp1.trans (hp2.trans hp3)
          have hlen : h.length ≤ h2.length := (hp1.trans hp2).length_le
          have hE1 : (h2 ++ [Obj.cfgErrors (P.config.flatMap (·.errorList h)), .ptrs r])[h2.length]? = some (.cfgErrors (P.config.flatMap (·.errorList h))) := by simp
          have hE2 : (h2 ++ [Obj.cfgErrors (P.config.flatMap (·.errorList h)), .ptrs r])[h2.length + 1]? = some (.ptrs r) := by simp
          obtain ⟨hce, hcs⟩ := configs_errors hconf
          refine ⟨n, h2 ++ [.cfgErrors (P.config.flatMap (·.errorList h)), .ptrs r], { status := if P.status == [] then c!"ok" else P.status, errors := some e1, config := [({ file := c0.file, status := if P.config.any (fun c => c.status == c!"failed") then c!"failed" else c!"ok", errors := some h2.length, parsed := h2.length + 1 } : HConfig)] },
            fun m hm => ?_, hall, hr.mono hall, ?_, ({ file := c0.file, status := if P.config.any (fun c => c.status == c!"failed") then c!"failed" else c!"ok", errors := some h2.length, parsed := h2.length + 1 } : HConfig), r, l, rfl, hE2, ho.mono hp3, ?_, ?_, ?_⟩
          · rw [hh1, pre_get hp1 ha]
            simp only
            rw [hk0.file, hn m hm]
            rfl
          · cases hq
            refine ⟨?_, pre_get (hp2.trans hp3) herr, .cons ⟨hk0.file, ?_, ?_, r, hE2, hr2.mono hp3⟩ .nil⟩
            · simp only [hr.status]
            · simp only [hcs, hp0]
            · simp only [hce, hp0]; simp
          · rw [List.nodup_cons]
            exact ⟨fun hm => by have := (hb (h2.length + 1) hm).2; omega, hd⟩
          · intro x hx
            rcases List.mem_cons.mp hx with rfl | hx
            · simp only; omega
            · have := (hb x hx).1; omega
          · intro hcl x hx c hc
            have hxl := hb x hx
            rw [old_get hp3 hxl.2] at hc
            refine runH_copy hcl (fun cfg hcfg => ?_) n h1 (.list k0.file as) h2 r hp1 (hcl.2 _ _ ha) hrun x hxl.1 c hc
            obtain ⟨i, hi, rfl⟩ := List.getElem_of_mem hcfg
            obtain ⟨as', ha', -⟩ := ((List.forall₂_iff_get.mp hconf).2 i hi (by rw [← hconf.length_eq]; exact hi)).parsed
            exact (List.getElem?_eq_some_iff.mp ha').1
        | err e => rw [hpi] at hq; cases hq
        | panic => rw [hpi] at hq; cases hq
        | fuel => rw [hpi] at hq; cases hq

/-- C87.  If the sequential model returns an error or panics, so does `Combined`. -/
theorem C87_error {h : Heap} {P : HPayload} {p : Payload} (hr : RPayload h P p) {fuel : Nat} :
    (∀ e, combined fuel p = .err e → ∃ n, ∀ m, n ≤ m → combinedH m h P = .err e) ∧ (combined fuel p = .panic → ∃ n, ∀ m, n ≤ m → combinedH m h P = .panic) := by
  have hconf := hr.config
  cases hP : P.config with
  | nil =>
    have : p.config = [] := by rw [hP] at hconf; exact List.forall₂_nil_left_iff.mp hconf
    refine ⟨fun e hq => ?_, fun hq => ?_⟩ <;> (unfold combined at hq; rw [this] at hq; cases hq)
  | cons c0 crest =>
    cases hp0 : p.config with
    | nil => rw [hP, hp0] at hconf; cases hconf
    | cons k0 krest =>
      have hcc := hconf
      rw [hP, hp0] at hcc
      cases hcc with
      | cons hk0 hkrest =>
        obtain ⟨as, ha, hl⟩ := hk0.parsed
        obtain ⟨h1, hp1, hh1⟩ : ∃ h1 : Heap, h <+: h1 ∧ ∀ m, (∀ e, runH P.config m h1 (.list c0.file as) = .err e → combinedH m h P = .err e) ∧
            (runH P.config m h1 (.list c0.file as) = .panic → combinedH m h P = .panic) := by
          cases hE : P.errors with
          | none =>
            refine ⟨h ++ [.payErrors []], List.prefix_append _ _, fun m => ?_⟩
            have ha1 := pre_get (List.prefix_append h [.payErrors []]) ha
            refine ⟨fun e hm => ?_, fun hm => ?_⟩ <;>
            · unfold combinedH
              rw [hP] at hm ⊢
              rw [hE]
              simp only [ha1, hm]
              rfl
          | some e0 =>
            refine ⟨h, List.prefix_rfl, fun m => ?_⟩
            refine ⟨fun e hm => ?_, fun hm => ?_⟩ <;>
            · unfold combinedH
              rw [hP] at hm ⊢
              rw [hE]
              simp only [ha, hm]
              rfl
        have hconf1 : List.Forall₂ (RConfig h1) P.config p.config := hconf.imp fun _ _ => Spec.RConfig.mono hp1
        have hset := runH_settles hconf1 fuel k0.file k0.parsed as h1 List.prefix_rfl (hl.mono hp1)
        rw [hp0, ← hk0.file] at hset
        unfold combined
        rw [hp0]
        simp only
        rw [← hk0.file]
        refine ⟨fun e hq => ?_, fun hq => ?_⟩
        · cases hpi : performIncludes (k0 :: krest) fuel c0.file k0.parsed with
          | err e' =>
            rw [hpi] at hq hset
            cases hq
            obtain ⟨n, R, hn, hs⟩ := hset (by simp)
            cases hs
            exact ⟨n, fun m hm => (hh1 m).1 e (hn m hm)⟩
          | ok _ => rw [hpi] at hq; cases hq
          | panic => rw [hpi] at hq; cases hq
          | fuel => rw [hpi] at hq; cases hq
        · cases hpi : performIncludes (k0 :: krest) fuel c0.file k0.parsed with
          | panic =>
            rw [hpi] at hset
            obtain ⟨n, R, hn, hs⟩ := hset (by simp)
            cases hs
            exact ⟨n, fun m hm => (hh1 m).2 (hn m hm)⟩
          | ok _ => rw [hpi] at hq; cases hq
          | err e => rw [hpi] at hq; cases hq
          | fuel => rw [hpi] at hq; cases hq

/-- C87.  The array of `Errors`, if there is one, is shared with the old payload. -/
theorem C87_errors {h h' : Heap} {P Q : HPayload} {m e : Nat} (hm : combinedH m h P = .ok (h', some Q)) (he : P.errors = some e) : Q.errors = some e := by
  unfold combinedH at hm
  rw [he] at hm
  split at hm
  · cases hm
  · simp only at hm
    split at hm
    · cases hr : runH P.config m h (.list _ _) with
      | ok r => rw [hr] at hm; simp only [Res.bind] at hm; cases hm; rfl
      | err e => rw [hr] at hm; cases hm
      | panic => rw [hr] at hm; cases hm
      | fuel => rw [hr] at hm; cases hm
    · cases hm

/-- C87.  A payload without configs is returned itself. -/
theorem C87_empty {P : HPayload} (hP : P.config = []) (m : Nat) (h : Heap) : combinedH m h P = .ok (h, none) := by
  unfold combinedH
  rw [hP]

/-- C87.  Assignments to new objects, in particular to the fields of the directives of the result and to the elements of its blocks, do not change the receiver. -/
theorem C87_assign {h h' : Heap} {P : HPayload} {p : Payload} (hr : RPayload h P p) (hp : h <+: h') (as : List (Nat × Obj)) (has : ∀ a ∈ as, h.length ≤ a.1) :
    RPayload (as.foldl (fun h a => h.set a.1 a.2) h') P p := by
  refine hr.mono ?_
  induction as generalizing h' with
  | nil => exact hp
  | cons a as ih =>
    refine ih ?_ fun b hb => has b (List.mem_cons_of_mem _ hb)
    obtain ⟨t, rfl⟩ := hp
    have hs : (h ++ t).set a.1 a.2 = h ++ t.set (a.1 - h.length) a.2 := List.set_append_right _ _ (has a (by simp))
    show h <+: (h ++ t).set a.1 a.2
    rw [hs]
    exact List.prefix_append _ _

/-! ## What is shared -/

/-- In memory: config 0 is `include f; include f;`, config 1 is `gzip on;`. -/
def exHeap : Heap :=
  [.strs [c!"on"], .dir { directive := c!"gzip", line := 1, args := 0 }, .ptrs [1],
   .strs [c!"f"], .ints [1], .dir { directive := c!"include", line := 1, args := 3, includes := some 4 },
   .dir { directive := c!"include", line := 2, args := 3, includes := some 4 }, .ptrs [5, 6]]

def exHPayload : HPayload := { status := c!"ok", errors := none, config := [⟨c!"e", c!"ok", none, 7⟩, ⟨c!"f", c!"ok", none, 2⟩] }

/-- The payload, with the argument of `gzip`. -/
def exHTree (arg : Str) : Payload :=
  { status := c!"ok", errors := []
    config := [
      { file := c!"e", status := c!"ok", parsed := [{ directive := c!"include", line := 1, args := [c!"f"], includes := some [1] },
          { directive := c!"include", line := 2, args := [c!"f"], includes := some [1] }] },
      { file := c!"f", status := c!"ok", parsed := [{ directive := c!"gzip", line := 1, args := [arg] }] }] }

/-- The combined payload, with the arguments of the two copies of `gzip`. -/
def exHTwice (arg arg' : Str) : Payload :=
  { status := c!"ok", errors := []
    config := [{ file := c!"e", status := c!"ok", parsed := [{ directive := c!"gzip", line := 1, args := [arg] }, { directive := c!"gzip", line := 1, args := [arg'] }] }] }

/-- The memory after combining, where the argument of `gzip` is `arg`. -/
def exHeap' (arg : Str) : Heap :=
  exHeap.set 0 (.strs [arg]) ++ [.payErrors [], .dir { directive := c!"gzip", line := 1, args := 0 }, .dir { directive := c!"gzip", line := 1, args := 0 }, .cfgErrors [], .ptrs [9, 10]]

def exHPayload' : HPayload := { status := c!"ok", errors := some 8, config := [⟨c!"e", c!"ok", some 11, 12⟩] }

private theorem exHReads (t : Heap) (arg : Str) : RPayload (exHeap.set 0 (.strs [arg]) ++ t) exHPayload (exHTree arg) := by
  refine Spec.RPayload.mono (List.prefix_append _ _) ⟨rfl, rfl, .cons ⟨rfl, rfl, rfl, [5, 6], rfl, ?_⟩ (.cons ⟨rfl, rfl, rfl, [1], rfl, ?_⟩ .nil)⟩
  · simp [RList, RCell, ROpt, RInts, RText, exHeap]
  · simp [RList, RCell, ROpt, RInts, RText, exHeap]

private theorem exHReads' (arg : Str) : RPayload (exHeap' arg) exHPayload' (exHTwice arg arg) := by
  refine ⟨rfl, rfl, .cons ⟨rfl, rfl, rfl, [9, 10], rfl, ?_⟩ .nil⟩
  simp [RList, RCell, ROpt, RInts, RText, exHeap', exHeap]

/-- C87 does not hold for the elements of `Args`: after `Combined`, `combined.Config[0].Parsed[0].Args[0] = "off"` changes the receiver, and also the other place where the file is
included. -/
theorem C87_false_args : ∃ (h h' : Heap) (P Q : HPayload) (c : Cell) (p q p' q' : Payload), RPayload h P p ∧ combinedH 9 h P = .ok (h', some Q) ∧ RPayload h' Q q ∧
    h'[9]? = some (.dir c) ∧ RPayload (h'.set c.args (.strs [c!"off"])) P p' ∧ RPayload (h'.set c.args (.strs [c!"off"])) Q q' ∧
    p = exHTree c!"on" ∧ p' = exHTree c!"off" ∧ q = exHTwice c!"on" c!"on" ∧ q' = exHTwice c!"off" c!"off" := by
  refine ⟨exHeap, exHeap' c!"on", exHPayload, exHPayload', { directive := c!"gzip", line := 1, args := 0 }, _, _, _, _, ?_, by rfl, exHReads' c!"on", rfl, exHReads _ c!"off", exHReads' c!"off",
    rfl, rfl, rfl, rfl⟩
  have := exHReads [] c!"on"
  rw [List.append_nil] at this
  exact this

/-- The hypotheses of C87 for this payload. -/
example : ∃ n h' Q, (∀ m, n ≤ m → combinedH m exHeap exHPayload = .ok (h', some Q)) ∧ RPayload h' exHPayload (exHTree c!"on") ∧ RPayload h' Q (exHTwice c!"on" c!"on") := by
  have hr := exHReads [] c!"on"
  rw [List.append_nil] at hr
  obtain ⟨n, h', Q, h1, -, h2, h3, -⟩ := C87 (h := exHeap) hr (by simp [exHTree]) (fuel := 2) (q := exHTwice c!"on" c!"on") rfl
  exact ⟨n, h', Q, h1, h2, h3⟩

end Verif
