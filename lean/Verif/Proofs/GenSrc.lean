import Verif.Model.GenSrc
import Verif.Spec.CSource
import Mathlib.Data.List.Infix
/-!
# The regular expressions of the generator on well-formed sources
-/
namespace Verif
open Spec

/-! ## Matching -/

theorem matchAt_lit_some {t : Str} {ps : List RePart} {s : Str} {r} (h : matchAt (.lit t :: ps) s = some r) :
    ∃ s', s = t ++ s' ∧ matchAt ps s' = some r := by
  unfold matchAt at h
  split at h
  · rename_i hp
    obtain ⟨s', rfl⟩ := List.isPrefixOf_iff_prefix.mp hp
    exact ⟨s', rfl, by simpa using h⟩
  · cases h

theorem matchAt_lit (t : Str) (ps : List RePart) (s : Str) : matchAt (.lit t :: ps) (t ++ s) = matchAt ps s := by
  rw [matchAt, if_pos (by simp [List.isPrefixOf_iff_prefix])]
  simp

theorem matchAt_lit_none {t : Str} {ps : List RePart} {s : Str} (h : ¬ t <+: s) : matchAt (.lit t :: ps) s = none := by
  rw [matchAt, if_neg (by simpa [List.isPrefixOf_iff_prefix] using h)]

theorem mem_tries {a b k : Nat} {g : Bool} : k ∈ tries a b g ↔ a ≤ k ∧ k ≤ b := by
  unfold tries
  have : ∀ l : List Nat, (k ∈ if g then l.reverse else l) ↔ k ∈ l := by intro l; split <;> simp
  simp only [this, List.mem_map, List.mem_range]
  constructor
  · rintro ⟨i, hi, rfl⟩; omega
  · rintro ⟨h1, h2⟩; exact ⟨k - a, by omega, by omega⟩

theorem matchAt_rep_some {cls : Char → Bool} {min : Nat} {g c : Bool} {ps : List RePart} {s : Str} {r}
    (h : matchAt (.rep cls min g c :: ps) s = some r) :
    ∃ w s' r', s = w ++ s' ∧ min ≤ w.length ∧ (∀ x ∈ w, cls x = true) ∧ matchAt ps s' = some r' ∧ r = (if c then w :: r'.1 else r'.1, r'.2) := by
  unfold matchAt at h
  obtain ⟨k, hk, hm⟩ := List.exists_of_findSome?_eq_some h
  obtain ⟨h1, h2⟩ := mem_tries.mp hk
  obtain ⟨r', hr, rfl⟩ := Option.map_eq_some_iff.mp hm
  have hlen : (s.takeWhile cls).length ≤ s.length := (List.takeWhile_prefix cls).length_le
  refine ⟨s.take k, s.drop k, r', (List.take_append_drop k s).symm, by rw [List.length_take]; omega, ?_, hr, rfl⟩
  intro x hx
  have : s.take k = (s.takeWhile cls).take k := by
    have hp := List.takeWhile_prefix cls (l := s)
    obtain ⟨u, hu⟩ := hp
    conv => lhs; rw [← hu]
    rw [List.take_append_of_le_length h2]
  rw [this] at hx
  exact List.all_eq_true.mp List.all_takeWhile x (List.mem_of_mem_take hx)

theorem matchAt_len {re : List RePart} {s : Str} {r} (h : matchAt re s = some r) : r.2.length ≤ s.length := by
  induction re generalizing s r with
  | nil => simp only [matchAt, Option.some.injEq] at h; subst h; exact Nat.le_refl _
  | cons p ps ih =>
    cases p with
    | lit t =>
      obtain ⟨s', rfl, h'⟩ := matchAt_lit_some h
      have := ih h'
      rw [List.length_append]; omega
    | rep cls min g c =>
      obtain ⟨w, s', r', rfl, -, -, h', rfl⟩ := matchAt_rep_some h
      have := ih h'
      simp only [List.length_append]; omega

theorem findSome?_split {α β : Type} {f : α → Option β} {l1 l2 : List α} {a : α} {b : β} (h1 : ∀ x ∈ l1, f x = none) (h2 : f a = some b) :
    (l1 ++ a :: l2).findSome? f = some b := by
  induction l1 with
  | nil => simp [h2]
  | cons x l1 ih => rw [List.cons_append, List.findSome?_cons, h1 x (by simp)]; exact ih fun y hy => h1 y (by simp [hy])

theorem takeWhile_append {cls : Char → Bool} {w s : Str} (hw : ∀ c ∈ w, cls c = true) :
    (w ++ s).takeWhile cls = w ++ s.takeWhile cls := by
  induction w with
  | nil => rfl
  | cons c w ih => rw [List.cons_append, List.takeWhile_cons, hw c (by simp), if_pos rfl, ih fun x hx => hw x (by simp [hx]), List.cons_append]

/-- A greedy repetition that ends where the class ends. -/
theorem matchAt_greedy {cls : Char → Bool} {min : Nat} {c : Bool} {ps : List RePart} {w s : Str} {r}
    (hw : ∀ x ∈ w, cls x = true) (hs : ∀ x, s.head? = some x → cls x = false) (hm : min ≤ w.length) (h : matchAt ps s = some r) :
    matchAt (.rep cls min true c :: ps) (w ++ s) = some (if c then w :: r.1 else r.1, r.2) := by
  have htw : s.takeWhile cls = [] := by
    cases s with
    | nil => rfl
    | cons x s => rw [List.takeWhile_cons, hs x rfl]; rfl
  unfold matchAt
  rw [takeWhile_append hw, htw, List.append_nil]
  have : tries min w.length true = w.length :: ((List.range (w.length - min)).map (min + ·)).reverse := by
    unfold tries
    rw [if_pos rfl, show w.length + 1 - min = (w.length - min) + 1 by omega, List.range_succ, List.map_append, List.reverse_append]
    simp [show min + (w.length - min) = w.length by omega]
  rw [this, List.findSome?_cons]
  simp [h]

/-- A lazy repetition that ends at the first place where the rest matches. -/
theorem matchAt_lazy {cls : Char → Bool} {c : Bool} {ps : List RePart} {w s : Str} {r}
    (hw : ∀ x ∈ w, cls x = true) (hno : ∀ k < w.length, matchAt ps (w.drop k ++ s) = none) (h : matchAt ps s = some r) :
    matchAt (.rep cls 0 false c :: ps) (w ++ s) = some (if c then w :: r.1 else r.1, r.2) := by
  unfold matchAt
  rw [takeWhile_append hw, List.length_append]
  have : tries 0 (w.length + (s.takeWhile cls).length) false =
      List.range w.length ++ w.length :: (List.range (s.takeWhile cls).length).map (fun i => w.length + 1 + i) := by
    unfold tries
    simp only [Bool.false_eq_true, if_false, Nat.sub_zero, Nat.zero_add, List.map_id']
    rw [show w.length + (s.takeWhile cls).length + 1 = w.length + (1 + (s.takeWhile cls).length) by omega, List.range_add,
      show 1 + (s.takeWhile cls).length = (s.takeWhile cls).length + 1 by omega, List.range_succ_eq_map, List.map_cons, List.map_map]
    congr 1
    congr 1
    apply List.map_congr_left
    intro i _
    simp only [Function.comp]
    omega
  rw [this]
  refine findSome?_split (fun k hk => ?_) ?_
  · have hk' := List.mem_range.mp hk
    rw [List.drop_append_of_le_length (by omega), hno k hk']; rfl
  · simp [h]

/-! ## Finding and removing -/

/-- Every match takes at least one character. -/
def Consumes (re : List RePart) : Prop := ∀ s r, matchAt re s = some r → r.2.length < s.length

theorem consumes_lit {t : Str} (ht : t ≠ []) (ps : List RePart) : Consumes (.lit t :: ps) := by
  intro s r h
  obtain ⟨s', rfl, h'⟩ := matchAt_lit_some h
  have := matchAt_len h'
  have := List.length_pos_iff.mpr ht
  rw [List.length_append]; omega

theorem removeAllAux_fuel {re : List RePart} (hre : Consumes re) {n m : Nat} {s : Str} (hn : s.length ≤ n) (hm : s.length ≤ m) :
    removeAllAux re n s = removeAllAux re m s := by
  induction n generalizing m s with
  | zero =>
    have : s = [] := List.length_eq_zero_iff.mp (by omega)
    subst this; cases m <;> rfl
  | succ n ih =>
    cases s with
    | nil => cases m <;> rfl
    | cons c s =>
      cases m with
      | zero => simp at hm
      | succ m =>
        simp only [List.length_cons] at hn hm
        unfold removeAllAux
        cases h : matchAt re (c :: s) with
        | none => simp only; rw [ih (m := m) (by omega) (by omega)]
        | some r =>
          have := hre _ _ h
          simp only [List.length_cons] at this
          exact ih (by omega) (by omega)

theorem findAllAux_fuel {re : List RePart} (hre : Consumes re) {n m : Nat} {s : Str} (hn : s.length ≤ n) (hm : s.length ≤ m) :
    findAllAux re n s = findAllAux re m s := by
  induction n generalizing m s with
  | zero =>
    have : s = [] := List.length_eq_zero_iff.mp (by omega)
    subst this; cases m <;> rfl
  | succ n ih =>
    cases s with
    | nil => cases m <;> rfl
    | cons c s =>
      cases m with
      | zero => simp at hm
      | succ m =>
        simp only [List.length_cons] at hn hm
        unfold findAllAux
        cases h : matchAt re (c :: s) with
        | none => simp only; exact ih (by omega) (by omega)
        | some r =>
          have := hre _ _ h
          simp only [List.length_cons] at this
          simp only; rw [ih (m := m) (by omega) (by omega)]

theorem removeAll_match {re : List RePart} (hre : Consumes re) {s : Str} {r} (h : matchAt re s = some r) : removeAll re s = removeAll re r.2 := by
  have hl := hre _ _ h
  cases s with
  | nil => simp at hl
  | cons c s =>
    simp only [List.length_cons] at hl
    unfold removeAll
    rw [List.length_cons, removeAllAux, h]
    exact removeAllAux_fuel hre (by omega) (by omega)

theorem findAll_match {re : List RePart} (hre : Consumes re) {s : Str} {r} (h : matchAt re s = some r) : findAll re s = r.1 :: findAll re r.2 := by
  have hl := hre _ _ h
  cases s with
  | nil => simp at hl
  | cons c s =>
    simp only [List.length_cons] at hl
    unfold findAll
    rw [List.length_cons, findAllAux, h]
    simp only
    rw [findAllAux_fuel hre (by omega) (Nat.le_refl _)]

theorem removeAll_skip {re : List RePart} {w t : Str} (h : ∀ k < w.length, matchAt re (w.drop k ++ t) = none) : removeAll re (w ++ t) = w ++ removeAll re t := by
  induction w with
  | nil => rfl
  | cons c w ih =>
    have h0 := h 0 (by simp)
    have ih := ih fun k hk => by simpa using h (k + 1) (by simpa using hk)
    simp only [List.drop_zero, List.cons_append] at h0
    unfold removeAll at *
    rw [List.cons_append, List.length_cons, removeAllAux, h0]
    simp only
    rw [ih, List.cons_append]

theorem findAll_skip {re : List RePart} {w t : Str} (h : ∀ k < w.length, matchAt re (w.drop k ++ t) = none) : findAll re (w ++ t) = findAll re t := by
  induction w with
  | nil => rfl
  | cons c w ih =>
    have h0 := h 0 (by simp)
    have ih := ih fun k hk => by simpa using h (k + 1) (by simpa using hk)
    simp only [List.drop_zero, List.cons_append] at h0
    unfold findAll at *
    rw [List.cons_append, List.length_cons, findAllAux, h0]
    exact ih

theorem removeAll_nil (re : List RePart) : removeAll re [] = [] := rfl
theorem findAll_nil (re : List RePart) : findAll re [] = [] := rfl

/-! ## Where literals can stand -/

/-- A pair of characters that is not in `w` and the first character after it does not start in `w`. -/
theorem pair_not_prefix {a b : Char} {w t : Str} (h : ¬ [a, b] <:+: w ++ t.take 1) {k : Nat} (hk : k < w.length) : ¬ [a, b] <+: w.drop k ++ t := by
  intro hp
  apply h
  have hw : w = w.take k ++ w.drop k := (List.take_append_drop k w).symm
  have hne : w.drop k ≠ [] := by rw [ne_eq, List.drop_eq_nil_iff]; omega
  obtain ⟨x, u, hu⟩ := List.exists_cons_of_ne_nil hne
  rw [hu] at hp
  obtain ⟨v, hv⟩ := hp
  simp only [List.cons_append, List.nil_append, List.cons.injEq] at hv
  obtain ⟨rfl, hv⟩ := hv
  rw [hw, hu]
  cases u with
  | nil =>
    rw [List.nil_append] at hv
    rw [← hv]
    exact ⟨w.take k, [], by simp⟩
  | cons y u =>
    simp only [List.cons_append, List.cons.injEq] at hv
    obtain ⟨rfl, -⟩ := hv
    exact ⟨w.take k, u ++ t.take 1, by simp⟩

theorem pair_infix_append {a b : Char} {u v : Str} (h : [a, b] <:+: u ++ v) : [a, b] <:+: u ∨ [a, b] <:+: v ∨ u.getLast? = some a ∧ v.head? = some b := by
  obtain ⟨x, y, e⟩ := h
  rcases List.append_eq_append_iff.mp (show x ++ ([a, b] ++ y) = u ++ v by rw [← e]; simp) with ⟨z, h1, h2⟩ | ⟨z, h1, h2⟩
  · rcases z with _ | ⟨z1, _ | ⟨z2, z⟩⟩
    · right; left; exact ⟨[], y, by simpa using h2⟩
    · simp only [List.cons_append, List.nil_append, List.cons.injEq] at h2
      obtain ⟨rfl, rfl⟩ := h2
      right; right
      refine ⟨by rw [h1]; simp, rfl⟩
    · simp only [List.cons_append, List.nil_append, List.cons.injEq] at h2
      obtain ⟨rfl, rfl, h2⟩ := h2
      left; exact ⟨x, z, by rw [h1]; simp⟩
  · right; left; exact ⟨z, y, by rw [h2]; simp⟩

/-- A literal whose last character occurs only at its end starts in `w` only if it is in `w`. -/
theorem mark_not_prefix {d : Str} {z : Char} (hz : z ∉ d) {w t : Str} (h : ¬ (d ++ [z]) <:+: w) {k : Nat} (hk : k < w.length) :
    ¬ (d ++ [z]) <+: w.drop k ++ (d ++ [z] ++ t) := by
  rintro ⟨v, hv⟩
  have hw : w = w.take k ++ w.drop k := (List.take_append_drop k w).symm
  have hne : w.drop k ≠ [] := by rw [ne_eq, List.drop_eq_nil_iff]; omega
  rcases List.append_eq_append_iff.mp hv with ⟨u, h1, -⟩ | ⟨u, h1, h2⟩
  · exact h ⟨w.take k, u, by rw [List.append_assoc, ← h1, ← hw]⟩
  · rcases List.eq_nil_or_concat u with rfl | ⟨u', x, rfl⟩
    · exact h ⟨w.take k, [], by rw [List.append_assoc, List.append_nil, h1, List.append_nil, ← hw]⟩
    · have hx : x = z := by
        have := congrArg List.getLast? h1
        simpa using this.symm
      subst hx
      rw [List.concat_eq_append] at h1 h2
      have hl : u'.length < d.length := by
        have e1 := congrArg List.length h1
        have := List.length_pos_iff.mpr hne
        simp only [List.length_append, List.length_cons, List.length_nil] at e1
        omega
      have := congrArg (fun l => l[u'.length]?) h2
      simp only [List.append_assoc] at this
      rw [List.getElem?_append_left hl, List.getElem?_append_right (Nat.le_refl _)] at this
      simp at this
      exact hz (List.mem_of_getElem? this)

end Verif
