import Verif.Spec.Tree
/-!
# Induction on directive trees
-/
namespace Verif
open Spec

/-- Induction over a directive and the directives in its block. -/
theorem Directive.ind {P : Directive → Prop}
    (h : ∀ dd dl dargs df dincl (dblock : Option (List Directive)) dcomm dmap,
      (∀ ds, dblock = some ds → ∀ d ∈ ds, P d) → P ⟨dd, dl, dargs, df, dincl, dblock, dcomm, dmap⟩) : ∀ d, P d :=
  Directive.rec (motive_1 := P) (motive_2 := fun o => ∀ ds, o = some ds → ∀ d ∈ ds, P d)
    (motive_3 := fun l => ∀ d ∈ l, P d)
    (fun dd dl dargs df dincl dblock dcomm dmap ih => h dd dl dargs df dincl dblock dcomm dmap ih)
    (fun ds hh => by cases hh)
    (fun l ih ds hh => by cases hh; exact ih)
    (fun d hd => by cases hd)
    (fun d l ih1 ih2 d' hd' => by
      rcases List.mem_cons.mp hd' with rfl | h
      · exact ih1
      · exact ih2 d' h)

theorem Directive.eta (d : Directive) :
    (⟨d.directive, d.line, d.args, d.file, d.includes, d.block, d.comment, d.isMapBlockParameter⟩ : Directive) = d := by
  cases d; rfl

theorem fillList_eq (ds : List Directive) : fillList ds = ds.map fill := by
  induction ds with
  | nil => rfl
  | cons d ds ih => rw [fillList, ih]; rfl

theorem fillOpt_eq (o : Option (List Directive)) : fillOpt o = (o.getD []).map fill := by
  cases o with
  | none => rfl
  | some ds => exact fillList_eq ds

theorem fill_mk (dd dl dargs df dincl dblock dcomm dmap) :
    fill ⟨dd, dl, dargs, df, dincl, dblock, dcomm, dmap⟩ =
    ⟨dd, dl, dargs, df, some (dincl.getD []), some ((dblock.getD []).map fill), dcomm, dmap⟩ := by
  rw [fill, fillOpt_eq]

theorem fill_eta (d : Directive) : fill d =
    ⟨d.directive, d.line, d.args, d.file, some (d.includes.getD []), some ((d.block.getD []).map fill), d.comment,
      d.isMapBlockParameter⟩ := by
  obtain ⟨dd, dl, dargs, df, dincl, dblock, dcomm, dmap⟩ := d
  exact fill_mk ..

theorem zip_all_eq {α : Type} [BEq α] [LawfulBEq α] [DecidableEq α] (a b : List α) (h : a.length = b.length) :
    (a.zip b).all (fun p => p.1 == p.2) = decide (a = b) := by
  induction a generalizing b with
  | nil => cases b <;> simp_all
  | cons x a ih =>
    cases b with
    | nil => simp at h
    | cons y b =>
      rw [List.zip_cons_cons, List.all_cons, ih b (by simpa using h)]
      rw [Bool.eq_iff_iff]; simp

theorem equalsStrs_iff (a b : List Str) : equalsStrs a b = true ↔ a = b := by
  unfold equalsStrs
  by_cases h : a.length = b.length
  · rw [if_neg (by simp [h]), zip_all_eq _ _ h, decide_eq_true_iff]
  · simp only [bne_iff_ne, ne_eq, h, not_false_eq_true, if_true, Bool.false_eq_true, false_iff]
    rintro rfl; exact h rfl

theorem strPtrEqual_iff (a b : Option Str) : strPtrEqual a b = true ↔ a = b := by
  cases a <;> cases b <;> simp [strPtrEqual]

theorem equalList_iff (ds : List Directive) (ih : ∀ d ∈ ds, ∀ a, d.equal a = true ↔ fill d = fill a) (as : List Directive)
    (h : as.length = ds.length) : Directive.equalList ds as = true ↔ ds.map fill = as.map fill := by
  induction ds generalizing as with
  | nil => cases as <;> simp_all [Directive.equalList]
  | cons d ds ih2 =>
    cases as with
    | nil => simp at h
    | cons a as =>
      rw [Directive.equalList, Bool.and_eq_true, ih d (by simp), ih2 (fun d hd => ih d (by simp [hd])) as (by simpa using h)]
      simp

theorem equalOpt_iff (o : Option (List Directive)) (ih : ∀ d ∈ o.getD [], ∀ a, d.equal a = true ↔ fill d = fill a)
    (as : List Directive) (h : as.length = (o.getD []).length) :
    Directive.equalOpt o as = true ↔ (o.getD []).map fill = as.map fill := by
  cases o with
  | none => cases as <;> simp_all [Directive.equalOpt]
  | some ds => exact equalList_iff ds ih as h

theorem equal_iff (d : Directive) : ∀ a, d.equal a = true ↔ fill d = fill a := by
  induction d using Directive.ind with
  | h dd dl dargs df dincl dblock dcomm dmap ih =>
    intro a
    have ih' : ∀ d ∈ dblock.getD [], ∀ a, d.equal a = true ↔ fill d = fill a := by
      intro d hd
      cases dblock with
      | none => simp at hd
      | some ds => exact ih ds rfl d hd
    rw [fill_mk, fill_eta a, Directive.equal]
    simp only [Bool.and_eq_true, equalsStrs_iff, strPtrEqual_iff, beq_iff_eq, Directive.mk.injEq, Option.some.injEq]
    constructor
    · rintro ⟨⟨⟨⟨⟨⟨⟨⟨⟨h1, h2⟩, h3⟩, h4⟩, h5⟩, h6⟩, h7⟩, h8⟩, h9⟩, h10⟩
      rw [zip_all_eq _ _ h4, decide_eq_true_iff] at h9
      rw [equalOpt_iff _ ih' _ h3] at h10
      exact ⟨h1.symm, h6.symm, h2.symm, h7.symm, h9.symm, h10, h5.symm, h8.symm⟩
    · rintro ⟨h1, h6, h2, h7, h9, h10, h5, h8⟩
      have h3 : (a.block.getD []).length = (dblock.getD []).length := by
        have := congrArg List.length h10; simpa using this.symm
      refine ⟨⟨⟨⟨⟨⟨⟨⟨⟨h1.symm, h2.symm⟩, h3⟩, by rw [h9]⟩, h5.symm⟩, h6.symm⟩, h7.symm⟩, h8.symm⟩, ?_⟩, ?_⟩
      · rw [zip_all_eq _ _ (by rw [h9]), decide_eq_true_iff, h9]
      · rw [equalOpt_iff _ ih' _ h3]; exact h10

end Verif
