import Verif.Model.Combine
import Verif.Spec.Expand
import Verif.Proofs.Tree
import Mathlib.Tactic.Tauto
import Mathlib.Tactic.ByContra
/-!
# Lemmas about combining configs
-/
namespace Verif
open Spec

theorem isInclude_iff (d : Directive) : d.isInclude = true ↔ IsInclude d := by
  unfold Directive.isInclude IsInclude
  cases d.includes <;> simp

theorem Res.bind_ok {α β : Type} {r : Res α} {f : α → Res β} {b : β} :
    r.bind f = .ok b ↔ ∃ a, r = .ok a ∧ f a = .ok b := by
  cases r <;> simp [Res.bind]

theorem Res.bind_err {α β : Type} {r : Res α} {f : α → Res β} {e : GoErr} :
    r.bind f = .err e ↔ r = .err e ∨ ∃ a, r = .ok a ∧ f a = .err e := by
  cases r <;> simp [Res.bind]

theorem Res.bind_panic {α β : Type} {r : Res α} {f : α → Res β} :
    r.bind f = .panic ↔ r = .panic ∨ ∃ a, r = .ok a ∧ f a = .panic := by
  cases r <;> simp [Res.bind]

theorem Res.bind_fuel {α β : Type} {r : Res α} {f : α → Res β} :
    r.bind f = .fuel ↔ r = .fuel ∨ ∃ a, r = .ok a ∧ f a = .fuel := by
  cases r <;> simp [Res.bind]

section
variable {cs : List Config} {inner : Str → List Directive → Res (List Directive)}

theorem expandIncludes_ok (hin : ∀ f ds out, inner f ds = .ok out → Expands cs ds out) {f : Str} {d : Directive}
    {is : List Int} {out : List Directive} (h : expandIncludes cs inner f d is = .ok out) : Inlines cs is out := by
  induction is generalizing out with
  | nil => simp only [expandIncludes, Res.ok.injEq] at h; subst h; exact .nil
  | cons i is ih =>
    unfold expandIncludes at h
    split at h
    · cases h
    · split at h
      · cases h
      · rename_i h1 h2
        split at h
        · cases h
        · rename_i c hc
          obtain ⟨o1, ho1, h⟩ := Res.bind_ok.mp h
          obtain ⟨o2, ho2, h⟩ := Res.bind_ok.mp h
          simp only [Res.ok.injEq] at h
          subst h
          have : i = (i.toNat : Int) := by omega
          rw [this]
          exact .cons hc (hin _ _ _ ho1) (ih ho2)

/-- `expandDir` on a whole directive. -/
theorem expandDir_eq (f : Str) (d : Directive) : expandDir cs inner f d =
    (expandOpt cs inner f d.block).bind fun nblock =>
      if !d.isInclude then .ok [{ d with block := nblock }]
      else expandIncludes cs inner f { d with block := nblock } (d.includes.getD []) := by
  obtain ⟨dd, dl, dargs, df, dincl, dblock, dcomm, dmap⟩ := d
  rw [expandDir]
  rfl

theorem expandList_cons (f : Str) (d : Directive) (ds : List Directive) : expandList cs inner f (d :: ds) =
    (expandDir cs inner f d).bind fun r => (expandList cs inner f ds).bind fun r' => .ok (r ++ r') := by
  rw [expandList]

/-- Induction over a list of directives and the lists of their blocks. -/
theorem listInd {P : List Directive → Prop} (h0 : P [])
    (h1 : ∀ d ds, (∀ b, d.block = some b → P b) → P ds → P (d :: ds)) : ∀ ds, P ds := by
  have key : ∀ d : Directive, ∀ b, d.block = some b → P b := by
    intro d
    induction d using Directive.ind with
    | h dd dl dargs df dincl dblock dcomm dmap ih =>
      intro b hb
      simp only at hb
      have ih' := ih b hb
      clear hb ih
      induction b with
      | nil => exact h0
      | cons d ds ihb => exact h1 d ds (ih' d (by simp)) (ihb (fun d hd => ih' d (by simp [hd])))
  intro ds
  induction ds with
  | nil => exact h0
  | cons d ds ih => exact h1 d ds (key d) ih

theorem expandOpt_ok {f : Str} {o o' : Option (List Directive)} (h : expandOpt cs inner f o = .ok o') :
    (o = none ∧ o' = none) ∨ ∃ b b', o = some b ∧ o' = some b' ∧ expandList cs inner f b = .ok b' := by
  cases o with
  | none => rw [expandOpt] at h; simp at h; exact Or.inl ⟨rfl, h.symm⟩
  | some b =>
    rw [expandOpt] at h
    obtain ⟨b', h1, h2⟩ := Res.bind_ok.mp h
    simp only [Res.ok.injEq] at h2
    exact Or.inr ⟨b, b', rfl, h2.symm, h1⟩

theorem expandList_ok (hin : ∀ f ds out, inner f ds = .ok out → Expands cs ds out) (f : Str) (ds : List Directive) :
    ∀ out, expandList cs inner f ds = .ok out → Expands cs ds out := by
  induction ds using listInd with
  | h0 => intro out h; rw [expandList] at h; simp at h; subst h; exact .nil
  | h1 d ds ihb ih =>
    intro out h
    rw [expandList_cons] at h
    obtain ⟨o1, h1, h⟩ := Res.bind_ok.mp h
    obtain ⟨o2, h2, h⟩ := Res.bind_ok.mp h
    simp only [Res.ok.injEq] at h; subst h
    rw [expandDir_eq] at h1
    obtain ⟨nb, hnb, h1⟩ := Res.bind_ok.mp h1
    have hb : ExpandsBlock cs d.block nb := by
      rcases expandOpt_ok hnb with ⟨e1, rfl⟩ | ⟨b, b', e1, rfl, e2⟩
      · rw [e1]; exact .none
      · rw [e1]; exact .some (ihb b e1 b' e2)
    by_cases hi : d.isInclude = true
    · rw [if_neg (by simp [hi])] at h1
      exact .incl ((isInclude_iff d).mp hi) hb (expandIncludes_ok hin h1) (ih o2 h2)
    · rw [if_pos (by simp [hi])] at h1
      simp only [Res.ok.injEq] at h1; subst h1
      exact .keep (fun h => hi ((isInclude_iff d).mpr h)) hb (ih o2 h2)

end

theorem performIncludes_ok {cs : List Config} (n : Nat) : ∀ f ds out, performIncludes cs n f ds = .ok out → Expands cs ds out := by
  induction n with
  | zero => intro f ds out h; cases h
  | succ n ih => intro f ds out h; exact expandList_ok ih f ds out h

mutual
theorem expands_run {cs : List Config} : ∀ {ds out}, Expands cs ds out →
    ∃ n, ∀ m ≥ n, ∀ f, expandList cs (performIncludes cs m) f ds = .ok out
  | _, _, .nil => ⟨0, fun m _ f => by rw [expandList]⟩
  | _, _, .keep (d := d) hi hb hds => by
    obtain ⟨n1, h1⟩ := expandsBlock_run hb
    obtain ⟨n2, h2⟩ := expands_run hds
    refine ⟨n1 + n2, fun m hm f => ?_⟩
    have hi' : d.isInclude = false := by
      rw [← Bool.not_eq_true]; exact fun h => hi ((isInclude_iff d).mp h)
    rw [expandList_cons, expandDir_eq, h1 m (by omega), h2 m (by omega)]
    simp [Res.bind, hi']
  | _, _, .incl (d := d) hi hb hin hds => by
    obtain ⟨n1, h1⟩ := expandsBlock_run hb
    obtain ⟨n2, h2⟩ := expands_run hds
    obtain ⟨n3, h3⟩ := inlines_run hin
    refine ⟨n1 + n2 + n3, fun m hm f => ?_⟩
    have hi' : d.isInclude = true := (isInclude_iff d).mpr hi
    rw [expandList_cons, expandDir_eq, h1 m (by omega), h2 m (by omega)]
    simp [Res.bind, hi', h3 m (by omega)]
theorem expandsBlock_run {cs : List Config} : ∀ {o o'}, ExpandsBlock cs o o' →
    ∃ n, ∀ m ≥ n, ∀ f, expandOpt cs (performIncludes cs m) f o = .ok o'
  | _, _, .none => ⟨0, fun m _ f => by rw [expandOpt]⟩
  | _, _, .some h => by
    obtain ⟨n, h1⟩ := expands_run h
    exact ⟨n, fun m hm f => by rw [expandOpt, h1 m hm]; rfl⟩
theorem inlines_run {cs : List Config} : ∀ {is out}, Inlines cs is out →
    ∃ n, ∀ m ≥ n, ∀ f d, expandIncludes cs (performIncludes cs m) f d is = .ok out
  | _, _, .nil => ⟨0, fun m _ f d => rfl⟩
  | _, _, .cons (i := i) hc he hin => by
    obtain ⟨n1, h1⟩ := expands_run he
    obtain ⟨n2, h2⟩ := inlines_run hin
    refine ⟨n1 + n2 + 1, fun m hm f d => ?_⟩
    have hlt : i < cs.length := (List.getElem?_eq_some_iff.mp hc).1
    obtain ⟨k, rfl⟩ : ∃ k, m = k + 1 := ⟨m - 1, by omega⟩
    unfold expandIncludes
    rw [if_neg (by omega), if_neg (by omega)]
    simp only [Int.toNat_natCast, hc]
    rw [performIncludes, h1 k (by omega), h2 (k + 1) (by omega)]
    rfl
end

/-! ## What is reached -/

theorem Spec.Within.cons {d d' : Directive} {ds : List Directive} (h : Within d ds) : Within d (d' :: ds) := by
  cases h with
  | here h => exact .here (by simp [h])
  | deep h1 h2 h3 => exact .deep (by simp [h1]) h2 h3

theorem within_append {d : Directive} {a b : List Directive} : Within d (a ++ b) ↔ Within d a ∨ Within d b := by
  constructor
  · intro h
    cases h with
    | here h =>
      rcases List.mem_append.mp h with h | h
      · exact Or.inl (.here h)
      · exact Or.inr (.here h)
    | deep h1 h2 h3 =>
      rcases List.mem_append.mp h1 with h | h
      · exact Or.inl (.deep h h2 h3)
      · exact Or.inr (.deep h h2 h3)
  · rintro (h | h)
    · cases h with
      | here h => exact .here (by simp [h])
      | deep h1 h2 h3 => exact .deep (by simp [h1]) h2 h3
    · cases h with
      | here h => exact .here (by simp [h])
      | deep h1 h2 h3 => exact .deep (by simp [h1]) h2 h3

theorem within_nil {d : Directive} : ¬ Within d [] := by
  intro h
  cases h with
  | here h => cases h
  | deep h _ _ => cases h

theorem within_cons {d d' : Directive} {ds : List Directive} :
    Within d (d' :: ds) ↔ d = d' ∨ (∃ b, d'.block = some b ∧ Within d b) ∨ Within d ds := by
  constructor
  · intro h
    cases h with
    | here h =>
      rcases List.mem_cons.mp h with h | h
      · exact Or.inl h
      · exact Or.inr (Or.inr (.here h))
    | deep h1 h2 h3 =>
      rcases List.mem_cons.mp h1 with rfl | h
      · exact Or.inr (Or.inl ⟨_, h2, h3⟩)
      · exact Or.inr (Or.inr (.deep h h2 h3))
  · rintro (rfl | ⟨b, h1, h2⟩ | h)
    · exact .here (by simp)
    · exact .deep (List.mem_cons_self ..) h1 h2
    · exact h.cons

mutual
theorem expands_valid {cs : List Config} : ∀ {ds out}, Expands cs ds out → ∀ d, Within d ds → IsInclude d →
    ∀ j ∈ d.includes.getD [], ∃ (i : Nat) (c : Config) (out' : List Directive), j = (i : Int) ∧ cs[i]? = some c ∧
      Expands cs c.parsed out'
  | _, _, .nil => fun d h => absurd h within_nil
  | _, _, .keep hi hb hds => fun d h hd j hj => by
    rcases within_cons.mp h with rfl | ⟨b, h1, h2⟩ | h
    · exact absurd hd hi
    · exact expandsBlock_valid hb b h1 d h2 hd j hj
    · exact expands_valid hds d h hd j hj
  | _, _, .incl hi hb hin hds => fun d h hd j hj => by
    rcases within_cons.mp h with rfl | ⟨b, h1, h2⟩ | h
    · exact inlines_valid hin j hj
    · exact expandsBlock_valid hb b h1 d h2 hd j hj
    · exact expands_valid hds d h hd j hj
theorem expandsBlock_valid {cs : List Config} : ∀ {o o'}, ExpandsBlock cs o o' → ∀ b, o = some b → ∀ d, Within d b →
    IsInclude d → ∀ j ∈ d.includes.getD [], ∃ (i : Nat) (c : Config) (out' : List Directive), j = (i : Int) ∧
      cs[i]? = some c ∧ Expands cs c.parsed out'
  | _, _, .none => fun b hb => by cases hb
  | _, _, .some h => fun b hb => by cases hb; exact expands_valid h
theorem inlines_valid {cs : List Config} : ∀ {is out}, Inlines cs is out → ∀ j ∈ is,
    ∃ (i : Nat) (c : Config) (out' : List Directive), j = (i : Int) ∧ cs[i]? = some c ∧ Expands cs c.parsed out'
  | _, _, .nil => fun j hj => by cases hj
  | _, _, .cons (i := i) hc he hin => fun j hj => by
    rcases List.mem_cons.mp hj with rfl | hj
    · exact ⟨i, _, _, rfl, hc, he⟩
    · exact inlines_valid hin j hj
end

theorem reach_expands {cs : List Config} {c0 : Config} (h0 : cs[0]? = some c0) {out : List Directive}
    (he : Expands cs c0.parsed out) {i : Nat} (h : Reach cs i) :
    ∃ c out', cs[i]? = some c ∧ Expands cs c.parsed out' := by
  induction h with
  | zero => exact ⟨c0, out, h0, he⟩
  | step _ hn ih =>
    obtain ⟨c, out', hc, he'⟩ := ih
    obtain ⟨c', hc', hw, hi, hj⟩ := hn
    rw [hc] at hc'; cases hc'
    obtain ⟨k, c', out'', hk, h1, h2⟩ := expands_valid he' _ hw hi _ hj
    have := Int.ofNat_inj.mp hk
    subst this
    exact ⟨c', out'', h1, h2⟩

/-! ## The output has no includes -/

mutual
theorem expands_clean {cs : List Config} : ∀ {ds out}, Expands cs ds out → ∀ d, Within d out → ¬ IsInclude d
  | _, _, .nil => fun d h => absurd h within_nil
  | _, _, .keep hi hb hds => fun d h => by
    rcases within_cons.mp h with rfl | ⟨b, h1, h2⟩ | h
    · exact hi
    · exact expandsBlock_clean hb b h1 d h2
    · exact expands_clean hds d h
  | _, _, .incl _ _ hin hds => fun d h => by
    rcases within_append.mp h with h | h
    · exact inlines_clean hin d h
    · exact expands_clean hds d h
theorem expandsBlock_clean {cs : List Config} : ∀ {o o'}, ExpandsBlock cs o o' → ∀ b, o' = some b → ∀ d, Within d b →
    ¬ IsInclude d
  | _, _, .none => fun b hb => by cases hb
  | _, _, .some h => fun b hb => by cases hb; exact expands_clean h
theorem inlines_clean {cs : List Config} : ∀ {is out}, Inlines cs is out → ∀ d, Within d out → ¬ IsInclude d
  | _, _, .nil => fun d h => absurd h within_nil
  | _, _, .cons _ he hin => fun d h => by
    rcases within_append.mp h with h | h
    · exact expands_clean he d h
    · exact inlines_clean hin d h
end

/-- Without includes nothing changes. -/
theorem expandList_clean {cs : List Config} (inner : Str → List Directive → Res (List Directive)) (f : Str) (ds : List Directive) :
    (∀ d, Within d ds → ¬ IsInclude d) → expandList cs inner f ds = .ok ds := by
  induction ds using listInd with
  | h0 => intro _; rw [expandList]
  | h1 d ds ihb ih =>
    intro h
    have hi : d.isInclude = false := by
      rw [← Bool.not_eq_true]; exact fun hh => h d (.here (by simp)) ((isInclude_iff d).mp hh)
    have ho : expandOpt cs inner f d.block = .ok d.block := by
      cases hb : d.block with
      | none => rw [expandOpt]
      | some b =>
        rw [expandOpt, ihb b hb (fun d' h' => h d' (.deep (List.mem_cons_self ..) hb h'))]; rfl
    rw [expandList_cons, expandDir_eq, ho, ih (fun d' h' => h d' h'.cons)]
    simp [Res.bind, hi]
    exact d.eta

/-! ## Errors, panics and termination -/

theorem expandIncludes_err {cs : List Config} {inner : Str → List Directive → Res (List Directive)} {f : Str} {d : Directive}
    {is : List Int} {e : GoErr} (h : expandIncludes cs inner f d is = .err e) :
    (∃ j ∈ is, j ≥ cs.length ∧ e = indexError f d j) ∨
    ∃ (i : Nat) (c : Config), (i : Int) ∈ is ∧ cs[i]? = some c ∧ inner c.file c.parsed = .err e := by
  induction is with
  | nil => cases h
  | cons j is ih =>
    unfold expandIncludes at h
    split at h
    · rename_i hj
      cases h; exact Or.inl ⟨j, by simp, hj, rfl⟩
    · split at h
      · cases h
      · split at h
        · cases h
        · rename_i c hc
          rcases Res.bind_err.mp h with h | ⟨a, _, h⟩
          · exact Or.inr ⟨j.toNat, c, by rw [Int.toNat_of_nonneg (by omega)]; simp, hc, h⟩
          · rcases Res.bind_err.mp h with h | ⟨a', _, h⟩
            · rcases ih h with ⟨j, h1, h2⟩ | ⟨i, c, h1, h2⟩
              · exact Or.inl ⟨j, by simp [h1], h2⟩
              · exact Or.inr ⟨i, c, by simp [h1], h2⟩
            · cases h

theorem expandIncludes_panic {cs : List Config} {inner : Str → List Directive → Res (List Directive)} {f : Str} {d : Directive}
    {is : List Int} (h : expandIncludes cs inner f d is = .panic) :
    (∃ j ∈ is, j < 0) ∨
    ∃ (i : Nat) (c : Config), (i : Int) ∈ is ∧ cs[i]? = some c ∧ inner c.file c.parsed = .panic := by
  induction is with
  | nil => cases h
  | cons j is ih =>
    unfold expandIncludes at h
    split at h
    · cases h
    · rename_i hj1
      split at h
      · rename_i hj; exact Or.inl ⟨j, by simp, hj⟩
      · split at h
        · rename_i hn
          rw [List.getElem?_eq_none_iff] at hn
          omega
        · rename_i c hc
          rcases Res.bind_panic.mp h with h | ⟨a, _, h⟩
          · exact Or.inr ⟨j.toNat, c, by rw [Int.toNat_of_nonneg (by omega)]; simp, hc, h⟩
          · rcases Res.bind_panic.mp h with h | ⟨a', _, h⟩
            · rcases ih h with ⟨j, h1, h2⟩ | ⟨i, c, h1, h2⟩
              · exact Or.inl ⟨j, by simp [h1], h2⟩
              · exact Or.inr ⟨i, c, by simp [h1], h2⟩
            · cases h

theorem expandIncludes_fuel {cs : List Config} {inner : Str → List Directive → Res (List Directive)} {f : Str} {d : Directive}
    {is : List Int} (h : expandIncludes cs inner f d is = .fuel) :
    ∃ (i : Nat) (c : Config), (i : Int) ∈ is ∧ cs[i]? = some c ∧ inner c.file c.parsed = .fuel := by
  induction is with
  | nil => cases h
  | cons j is ih =>
    unfold expandIncludes at h
    split at h
    · cases h
    · split at h
      · cases h
      · split at h
        · cases h
        · rename_i c hc
          rcases Res.bind_fuel.mp h with h | ⟨a, _, h⟩
          · exact ⟨j.toNat, c, by rw [Int.toNat_of_nonneg (by omega)]; simp, hc, h⟩
          · rcases Res.bind_fuel.mp h with h | ⟨a', _, h⟩
            · obtain ⟨i, c, h1, h2⟩ := ih h
              exact ⟨i, c, by simp [h1], h2⟩
            · cases h

/-- The ways in which a list can fail to expand: `bad` is one of the three unsuccessful results. -/
theorem expandList_bad {cs : List Config} {inner : Str → List Directive → Res (List Directive)} {f : Str}
    {ds : List Directive} {bad : ∀ {α : Type}, Res α}
    (hbad : (∃ e, @bad = fun {_} => .err e) ∨ @bad = (fun {_} => .panic) ∨ @bad = (fun {_} => .fuel)) :
    expandList cs inner f ds = bad →
    ∃ d nb, Within d ds ∧ IsInclude d ∧ expandIncludes cs inner f { d with block := nb } (d.includes.getD []) = bad := by
  have hb : ∀ {α β : Type} (r : Res α) (g : α → Res β), r.bind g = bad → r = bad ∨ ∃ a, r = .ok a ∧ g a = bad := by
    intro α β r g h
    rcases hbad with ⟨e, he⟩ | he | he
    · rw [he] at h ⊢; exact Res.bind_err.mp h
    · rw [he] at h ⊢; exact Res.bind_panic.mp h
    · rw [he] at h ⊢; exact Res.bind_fuel.mp h
  have hok : ∀ {α : Type} (a : α), Res.ok a ≠ bad := by
    intro α a h
    rcases hbad with ⟨e, he⟩ | he | he <;> rw [he] at h <;> cases h
  induction ds using listInd with
  | h0 => intro h; rw [expandList] at h; exact absurd h (hok _)
  | h1 d ds ihb ih =>
    intro h
    rw [expandList_cons] at h
    rcases hb _ _ h with h | ⟨a, _, h⟩
    · rw [expandDir_eq] at h
      rcases hb _ _ h with h | ⟨nb, _, h⟩
      · cases hblk : d.block with
        | none => rw [hblk, expandOpt] at h; exact absurd h (hok _)
        | some b =>
          rw [hblk, expandOpt] at h
          rcases hb _ _ h with h | ⟨a, _, h⟩
          · obtain ⟨d', nb, h1, h2⟩ := ihb b hblk h
            exact ⟨d', nb, .deep (List.mem_cons_self ..) hblk h1, h2⟩
          · exact absurd h (hok _)
      · by_cases hi : d.isInclude = true
        · rw [if_neg (by simp [hi])] at h
          exact ⟨d, nb, .here (by simp), (isInclude_iff d).mp hi, h⟩
        · rw [if_pos (by simp [hi])] at h
          exact absurd h (hok _)
    · rcases hb _ _ h with h | ⟨a', _, h⟩
      · obtain ⟨d', nb, h1, h2⟩ := ih h
        exact ⟨d', nb, h1.cons, h2⟩
      · exact absurd h (hok _)

theorem performIncludes_err {cs : List Config} {e : GoErr} (n : Nat) : ∀ {i : Nat} {c : Config}, Reach cs i → cs[i]? = some c →
    performIncludes cs n c.file c.parsed = .err e →
    ∃ i c d nb j, Reach cs i ∧ cs[i]? = some c ∧ Names cs i d j ∧ j ≥ cs.length ∧
      e = indexError c.file { d with block := nb } j := by
  induction n with
  | zero => intro i c _ _ h; cases h
  | succ n ih =>
    intro i c hr hc h
    obtain ⟨d, nb, h1, h2, h3⟩ := expandList_bad (bad := fun {_} => .err e) (Or.inl ⟨e, rfl⟩) h
    rcases expandIncludes_err h3 with ⟨j, hj, hlen, he⟩ | ⟨k, c', hk, hc', he⟩
    · exact ⟨i, c, d, nb, j, hr, hc, ⟨c, hc, h1, h2, hj⟩, hlen, he⟩
    · exact ih (.step hr ⟨c, hc, h1, h2, hk⟩) hc' he

theorem performIncludes_panic {cs : List Config} (n : Nat) : ∀ {i : Nat} {c : Config}, Reach cs i → cs[i]? = some c →
    performIncludes cs n c.file c.parsed = .panic → ∃ i d j, Reach cs i ∧ Names cs i d j ∧ j < 0 := by
  induction n with
  | zero => intro i c _ _ h; cases h
  | succ n ih =>
    intro i c hr hc h
    obtain ⟨d, nb, h1, h2, h3⟩ := expandList_bad (bad := fun {_} => .panic) (Or.inr (Or.inl rfl)) h
    rcases expandIncludes_panic h3 with ⟨j, hj, hlen⟩ | ⟨k, c', hk, hc', he⟩
    · exact ⟨i, d, j, hr, ⟨c, hc, h1, h2, hj⟩, hlen⟩
    · exact ih (.step hr ⟨c, hc, h1, h2, hk⟩) hc' he

theorem performIncludes_fuel {cs : List Config} (rank : Nat → Nat)
    (hrank : ∀ i d (j : Nat), Reach cs i → Names cs i d (j : Int) → j < cs.length → rank j < rank i) (n : Nat) :
    ∀ {i : Nat} {c : Config}, Reach cs i → cs[i]? = some c → rank i < n → performIncludes cs n c.file c.parsed ≠ .fuel := by
  induction n with
  | zero => intro i c _ _ h; omega
  | succ n ih =>
    intro i c hr hc hlt h
    obtain ⟨d, nb, h1, h2, h3⟩ := expandList_bad (bad := fun {_} => .fuel) (Or.inr (Or.inr rfl)) h
    obtain ⟨k, c', hk, hc', he⟩ := expandIncludes_fuel h3
    have hn : Names cs i d (k : Int) := ⟨c, hc, h1, h2, hk⟩
    have := hrank i d k hr hn (List.getElem?_eq_some_iff.mp hc').1
    exact ih (.step hr hn) hc' (by omega) he

end Verif
