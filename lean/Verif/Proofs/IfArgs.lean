import Verif.Spec.IfArgs
import Verif.Model.Analyze
import Mathlib.Tactic.Tauto
/-!
# `prepareIfArgs` removes the parentheses
-/
namespace Verif
open Spec

theorem trimLeft_spec (s : Str) : LTrim s (trimLeftSpace s) := by
  refine ⟨s.takeWhile isSpaceRune, (List.takeWhile_append_dropWhile).symm, ?_, ?_⟩
  · intro x hx
    have := List.all_takeWhile (p := isSpaceRune) (l := s)
    rw [List.all_eq_true] at this
    exact this x hx
  · intro x xs h
    unfold trimLeftSpace at h
    have := List.head?_dropWhile_not isSpaceRune s
    rw [h] at this
    simpa using this

theorem trimRight_spec (s : Str) : RTrim s (trimRightSpace s) := by
  obtain ⟨w, h1, h2, h3⟩ := trimLeft_spec s.reverse
  refine ⟨w.reverse, ?_, fun x hx => h2 x (by simpa using hx), ?_⟩
  · have := congrArg List.reverse h1
    rw [List.reverse_reverse, List.reverse_append] at this
    exact this
  · intro xs x h
    unfold trimRightSpace at h
    have := congrArg List.reverse h
    rw [List.reverse_reverse, List.reverse_append] at this
    exact h3 x xs.reverse this

theorem hasPrefix_paren (s : Str) : hasPrefix s c!"(" = true ↔ ∃ a, s = '(' :: a := by
  unfold hasPrefix
  cases s with
  | nil => simp
  | cons x xs => simp [List.isPrefixOf]; tauto

theorem hasSuffix_paren (s : Str) : hasSuffix s c!")" = true ↔ ∃ b, s = b ++ [')'] := by
  unfold hasSuffix
  rw [List.isSuffixOf_iff_suffix]
  constructor
  · rintro ⟨b, hb⟩; exact ⟨b, hb.symm⟩
  · rintro ⟨b, hb⟩; exact ⟨b, hb.symm⟩

theorem trimSuffix_paren (b : Str) : trimSuffixChar (b ++ [')']) ')' = b := by
  simp [trimSuffixChar, trimPrefixChar]

theorem length_beq_zero (s : Str) : (s.length == 0) = decide (s = []) := by
  cases s <;> simp

theorem trimLeft_snoc_paren (a : Str) : trimLeftSpace (a ++ [')']) = trimLeftSpace a ++ [')'] := by
  unfold trimLeftSpace
  induction a with
  | nil => decide
  | cons x a ih =>
    rw [List.cons_append, List.dropWhile_cons, List.dropWhile_cons]
    split
    · exact ih
    · rfl

/-- The case of one argument. -/
theorem prepareIfArgs_one (d : Directive) (a : Str) (h : d.args = ['(' :: a ++ [')']]) :
    prepareIfArgs d = if trimRightSpace (trimLeftSpace a) = [] then none
      else some { d with args := [trimRightSpace (trimLeftSpace a)] } := by
  unfold prepareIfArgs
  rw [h]
  have h1 : hasPrefix ('(' :: a ++ [')']) c!"(" = true := (hasPrefix_paren _).mpr ⟨_, rfl⟩
  have h2 : hasSuffix ('(' :: a ++ [')']) c!")" = true := (hasSuffix_paren _).mpr ⟨'(' :: a, rfl⟩
  simp only [List.head?_cons, List.getLast?_singleton, h1, h2, Bool.and_true, if_true]
  have h3 : trimPrefixChar ('(' :: a ++ [')']) '(' = a ++ [')'] := by simp [trimPrefixChar]
  rw [h3, trimLeft_snoc_paren]
  simp only [List.set_cons_zero, List.length_singleton, Nat.sub_self, List.getD_cons_zero, trimSuffix_paren, length_beq_zero,
    decide_eq_true_eq]
  by_cases hx : trimRightSpace (trimLeftSpace a) = []
  · simp [hx]
  · simp [hx]

/-- The case of more arguments. -/
theorem prepareIfArgs_more (d : Directive) (a : Str) (mid : List Str) (b : Str)
    (h : d.args = ('(' :: a) :: mid ++ [b ++ [')']]) :
    prepareIfArgs d = some { d with args := nonempty (trimLeftSpace a) ++ mid ++ nonempty (trimRightSpace b) } := by
  unfold prepareIfArgs
  rw [h]
  have h1 : hasPrefix ('(' :: a) c!"(" = true := (hasPrefix_paren _).mpr ⟨_, rfl⟩
  have h2 : hasSuffix (b ++ [')']) c!")" = true := (hasSuffix_paren _).mpr ⟨b, rfl⟩
  have h3 : trimPrefixChar ('(' :: a) '(' = a := by simp [trimPrefixChar]
  have hl : (('(' :: a) :: mid ++ [b ++ [')']]).getLast? = some (b ++ [')']) := by
    rw [List.getLast?_append]; rfl
  rw [hl]
  simp only [List.cons_append, List.head?_cons, h1, h2, Bool.and_true, if_true, h3, List.set_cons_zero]
  have hlen : (trimLeftSpace a :: (mid ++ [b ++ [')']])).length - 1 = mid.length + 1 := by simp
  rw [hlen]
  have hget : (trimLeftSpace a :: (mid ++ [b ++ [')']])).getD (mid.length + 1) [] = b ++ [')'] := by simp
  rw [hget, trimSuffix_paren]
  have hset : (trimLeftSpace a :: (mid ++ [b ++ [')']])).set (mid.length + 1) (trimRightSpace b) =
      trimLeftSpace a :: (mid ++ [trimRightSpace b]) := by simp
  rw [hset]
  have hget2 : (trimLeftSpace a :: (mid ++ [trimRightSpace b])).getD (mid.length + 1) [] = trimRightSpace b := by simp
  rw [hget2]
  simp only [List.getD_cons_zero, length_beq_zero, decide_eq_true_eq]
  have hle : (if trimLeftSpace a = [] then 1 else 0) ≤ (if trimRightSpace b = [] then mid.length + 1 else mid.length + 1 + 1) := by
    split <;> split <;> omega
  rw [if_neg (by omega)]
  congr 2
  unfold nonempty
  by_cases ha : trimLeftSpace a = [] <;> by_cases hb : trimRightSpace b = []
  · simp [ha, hb]
  · simp only [ha, hb, if_true, if_false]
    rw [List.take_of_length_le (by simp)]; simp
  · simp [ha, hb]
  · simp only [ha, hb, if_false]
    rw [List.take_of_length_le (by simp)]; simp

theorem prepareIfArgs_plain (d : Directive) (h : ¬ Parens d.args) : prepareIfArgs d = some d := by
  unfold prepareIfArgs
  split
  · rename_i a0 ae h0 he
    rw [if_neg]
    rw [Bool.and_eq_true, hasPrefix_paren, hasSuffix_paren]
    rintro ⟨⟨a, rfl⟩, ⟨b, rfl⟩⟩
    exact h ⟨⟨a, h0⟩, ⟨b, he⟩⟩
  · rfl

/-- The shapes of arguments in parentheses. -/
theorem parens_cases {args : List Str} (h : Parens args) :
    (∃ a, args = ['(' :: a ++ [')']]) ∨ ∃ a mid b, args = ('(' :: a) :: mid ++ [b ++ [')']] := by
  obtain ⟨⟨a, h0⟩, ⟨b, he⟩⟩ := h
  cases args with
  | nil => cases h0
  | cons x rest =>
    simp only [List.head?_cons, Option.some.injEq] at h0
    subst h0
    rcases List.eq_nil_or_concat rest with rfl | ⟨mid, l, rfl⟩
    · left
      simp only [List.getLast?_singleton, Option.some.injEq] at he
      cases b with
      | nil => simp at he
      | cons y b =>
        simp only [List.cons_append, List.cons.injEq] at he
        exact ⟨b, by rw [he.2]; rfl⟩
    · right
      rw [List.concat_eq_append] at he ⊢
      have : (('(' :: a) :: (mid ++ [l])).getLast? = some l := by
        rw [← List.cons_append, List.getLast?_append]; rfl
      rw [this] at he
      cases he
      exact ⟨a, mid, b, rfl⟩

/-- `prepareIfArgs` removes the parentheses. -/
theorem prepareIfArgs_some {d d' : Directive} (h : prepareIfArgs d = some d') : IfArgs d.args d'.args ∧ d' = { d with args := d'.args } := by
  by_cases hp : Parens d.args
  · rcases parens_cases hp with ⟨a, ha⟩ | ⟨a, mid, b, ha⟩
    · rw [prepareIfArgs_one d a ha] at h
      split at h
      · cases h
      · rename_i hne
        cases h
        refine ⟨?_, rfl⟩
        rw [ha]
        exact .one (trimLeft_spec a) (trimRight_spec _) hne
    · rw [prepareIfArgs_more d a mid b ha] at h
      cases h
      refine ⟨?_, rfl⟩
      rw [ha]
      exact .more (trimLeft_spec a) (trimRight_spec b)
  · rw [prepareIfArgs_plain d hp] at h
    cases h
    exact ⟨.plain hp, by cases d; rfl⟩

theorem trim_empty (a : Str) : trimRightSpace (trimLeftSpace a) = [] ↔ ∀ x ∈ a, isSpaceRune x = true := by
  constructor
  · intro h
    obtain ⟨w, h1, h2, -⟩ := trimLeft_spec a
    obtain ⟨w', h3, h4, -⟩ := trimRight_spec (trimLeftSpace a)
    rw [h, List.nil_append] at h3
    rw [h1, h3]
    intro x hx
    rcases List.mem_append.mp hx with hx | hx
    · exact h2 x hx
    · exact h4 x hx
  · intro h
    have : trimLeftSpace a = [] := by
      obtain ⟨w, h1, h2, h3⟩ := trimLeft_spec a
      cases hx : trimLeftSpace a with
      | nil => rfl
      | cons y ys =>
        have := h3 y ys hx
        rw [h y (by rw [h1, hx]; simp)] at this
        cases this
    rw [this]; rfl

/-- It panics exactly on one argument that is nothing but parentheses and white space. -/
theorem prepareIfArgs_none (d : Directive) :
    prepareIfArgs d = none ↔ ∃ w, d.args = ['(' :: w ++ [')']] ∧ ∀ x ∈ w, isSpaceRune x = true := by
  constructor
  · intro h
    by_cases hp : Parens d.args
    · rcases parens_cases hp with ⟨a, ha⟩ | ⟨a, mid, b, ha⟩
      · rw [prepareIfArgs_one d a ha] at h
        split at h
        · rename_i he; exact ⟨a, ha, (trim_empty a).mp he⟩
        · cases h
      · rw [prepareIfArgs_more d a mid b ha] at h; cases h
    · rw [prepareIfArgs_plain d hp] at h; cases h
  · rintro ⟨w, hw, hs⟩
    rw [prepareIfArgs_one d w hw, if_pos ((trim_empty w).mpr hs)]

end Verif
