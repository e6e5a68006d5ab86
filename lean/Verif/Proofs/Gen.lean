import Verif.Model.Gen
import Verif.Spec.Gen
import Mathlib.Data.List.Forall2
import Mathlib.Tactic.Tauto
import Mathlib.Tactic.ByContra
/-!
# Lemmas about the generator
-/
namespace Verif
open Spec

theorem lookup_append (m : MaskMap) (k : Str) (v : List Mask) (n : Str) :
    (m.append k v).lookup n = if n = k then some ((m.lookup n).getD [] ++ v) else m.lookup n := by
  induction m with
  | nil =>
    unfold MaskMap.append
    by_cases h : n = k <;> simp [h]
  | cons e m ih =>
    unfold MaskMap.append
    obtain ⟨a, b⟩ := e
    by_cases h1 : a = k
    · subst h1
      by_cases h : n = a <;> simp [h, List.lookup_cons, beq_false_of_ne]
    · by_cases h2 : n = a
      · subst h2
        simp [h1, List.lookup_cons]
      · have : (n == a) = false := by simpa using h2
        simp [h1, List.lookup_cons, this, ih]

theorem keys_append (m : MaskMap) (k : Str) (v : List Mask) :
    (m.append k v).map (·.1) = if k ∈ m.map (·.1) then m.map (·.1) else m.map (·.1) ++ [k] := by
  induction m with
  | nil => simp [MaskMap.append]
  | cons e m ih =>
    unfold MaskMap.append
    obtain ⟨a, b⟩ := e
    by_cases h1 : a = k
    · subst h1; simp
    · have h1' : ¬ k = a := fun h => h1 h.symm
      simp only [beq_iff_eq, h1, if_false, List.map_cons, ih, List.mem_cons, h1', false_or]
      split <;> simp

theorem nodup_append (m : MaskMap) (k : Str) (v : List Mask) (h : (m.map (·.1)).Nodup) : ((m.append k v).map (·.1)).Nodup := by
  rw [keys_append]
  split
  · exact h
  · rename_i hk
    rw [List.nodup_append]
    exact ⟨h, by simp, by intro a ha b hb; simp at hb; subst hb; rintro rfl; exact hk ha⟩

/-- The masks a list of entries gives to a name. -/
def entryMasks (f : MaskMap) (n : Str) : List Mask := (f.filter (fun e => e.1 == n)).flatMap (·.2)

theorem mergeFile_spec (f : MaskMap) (acc : MaskMap) (h : (acc.map (·.1)).Nodup) :
    ((mergeFile acc f).map (·.1)).Nodup ∧
    (∀ n, n ∈ (mergeFile acc f).map (·.1) ↔ n ∈ acc.map (·.1) ∨ n ∈ f.map (·.1)) ∧
    ∀ n, ((mergeFile acc f).lookup n).getD [] = (acc.lookup n).getD [] ++ entryMasks f n := by
  unfold mergeFile
  induction f generalizing acc with
  | nil => simp [h, entryMasks]
  | cons e f ih =>
    rw [List.foldl_cons]
    obtain ⟨h1, h2, h3⟩ := ih (acc.append e.1 e.2) (nodup_append _ _ _ h)
    refine ⟨h1, fun n => ?_, fun n => ?_⟩
    · rw [h2 n, keys_append]
      by_cases hk : e.1 ∈ acc.map (·.1)
      · rw [if_pos hk, List.map_cons, List.mem_cons]
        constructor
        · rintro (h | h)
          · exact Or.inl h
          · exact Or.inr (Or.inr h)
        · rintro (h | h | h)
          · exact Or.inl h
          · exact Or.inl (h ▸ hk)
          · exact Or.inr h
      · rw [if_neg hk, List.map_cons, List.mem_cons, List.mem_append, List.mem_singleton]
        tauto
    · rw [h3 n, lookup_append]
      unfold entryMasks
      by_cases hn : n = e.1
      · subst hn; simp [List.append_assoc]
      · have : ¬ e.1 = n := fun h => hn h.symm
        simp [hn, this]

theorem getMasks_fold (files : List MaskMap) (acc : MaskMap) (h : (acc.map (·.1)).Nodup) :
    ((files.foldl mergeFile acc).map (·.1)).Nodup ∧
    (∀ n, n ∈ (files.foldl mergeFile acc).map (·.1) ↔ n ∈ acc.map (·.1) ∨ Found files n) ∧
    ∀ n, ((files.foldl mergeFile acc).lookup n).getD [] = (acc.lookup n).getD [] ++ allMasks files n := by
  induction files generalizing acc with
  | nil => simp [h, allMasks, Found]
  | cons f files ih =>
    rw [List.foldl_cons]
    obtain ⟨a1, a2, a3⟩ := mergeFile_spec f acc h
    obtain ⟨h1, h2, h3⟩ := ih (mergeFile acc f) a1
    refine ⟨h1, fun n => ?_, fun n => ?_⟩
    · rw [h2 n, a2 n]
      unfold Found
      simp only [List.mem_map, List.mem_cons, exists_eq_or_imp, Prod.exists, exists_and_right, exists_eq_right]
      tauto
    · rw [h3 n, a3 n]
      simp [allMasks, entryMasks, List.append_assoc]

theorem lookup_isSome (m : MaskMap) (n : Str) : (m.lookup n).isSome = true ↔ n ∈ m.map (·.1) := by
  induction m with
  | nil => simp
  | cons e m ih =>
    rw [List.lookup_cons]
    by_cases h : n = e.1
    · simp [h]
    · have : (n == e.1) = false := by simpa using h
      simp only [this, List.map_cons, List.mem_cons, h, false_or]
      exact ih

theorem lookup_filter (m : MaskMap) (p : Str → Bool) (n : Str) :
    (m.filter (fun e => p e.1)).lookup n = if p n then m.lookup n else none := by
  induction m with
  | nil => simp
  | cons e m ih =>
    obtain ⟨a, b⟩ := e
    by_cases h : n = a
    · subst h
      by_cases hp : p n = true
      · simp [hp]
      · rw [List.filter_cons, if_neg hp, ih, if_neg hp, if_neg hp]
    · have hb : (n == a) = false := by simpa using h
      by_cases hp : p a = true
      · simp only [List.filter_cons, hp, if_true, List.lookup_cons, hb, ih]
      · rw [List.filter_cons, if_neg hp, ih, List.lookup_cons, hb]

theorem lookup_override (m ov : MaskMap) (n : Str) :
    (m.map (overrideEntry ov)).lookup n =
      (m.lookup n).map (fun ms => (ov.lookup n).getD ms) := by
  induction m with
  | nil => simp
  | cons e m ih =>
    obtain ⟨a, b⟩ := e
    have ha : overrideEntry ov (a, b) = (a, (ov.lookup a).getD b) := by
      unfold overrideEntry; cases ov.lookup a <;> rfl
    simp only [List.map_cons, ha, List.lookup_cons, ih]
    by_cases h : n = a
    · subst h; simp
    · have hb : (n == a) = false := by simpa using h
      simp [hb]

/-! ## The override flag -/

theorem splitOn1_ne_nil (sep : Char) (s : Str) : splitOn1 sep s ≠ [] := by
  cases s with
  | nil => simp [splitOn1]
  | cons c cs =>
    unfold splitOn1
    split
    · simp
    · split <;> simp

theorem splitOn1_cons (sep c : Char) (cs : Str) (h : c ≠ sep) :
    ∃ w ws, splitOn1 sep cs = w :: ws ∧ splitOn1 sep (c :: cs) = (c :: w) :: ws := by
  cases hs : splitOn1 sep cs with
  | nil => exact absurd hs (splitOn1_ne_nil sep cs)
  | cons w ws => exact ⟨w, ws, rfl, by rw [splitOn1, if_neg (by simpa using h), hs]⟩

theorem sepBy_cons_cons (sep c : Char) (w : Str) (ws : List Str) : sepBy sep ((c :: w) :: ws) = c :: sepBy sep (w :: ws) := by
  cases ws <;> simp [sepBy]

theorem splitOn1_spec (sep : Char) (s : Str) : sepBy sep (splitOn1 sep s) = s ∧ ∀ p ∈ splitOn1 sep s, sep ∉ p := by
  induction s with
  | nil => simp [splitOn1, sepBy]
  | cons c cs ih =>
    by_cases h : c = sep
    · subst h
      rw [splitOn1, if_pos (by simp)]
      cases hs : splitOn1 c cs with
      | nil => exact absurd hs (splitOn1_ne_nil c cs)
      | cons w ws =>
        rw [hs] at ih
        refine ⟨by rw [sepBy, ih.1]; rfl, ?_⟩
        intro p hp
        rcases List.mem_cons.mp hp with rfl | hp
        · simp
        · exact ih.2 p hp
    · obtain ⟨w, ws, h1, h2⟩ := splitOn1_cons sep c cs h
      rw [h1] at ih
      rw [h2, sepBy_cons_cons, ih.1]
      refine ⟨rfl, ?_⟩
      intro p hp
      rcases List.mem_cons.mp hp with rfl | hp
      · simp only [List.mem_cons, not_or]
        exact ⟨fun e => h e.symm, ih.2 w (by simp)⟩
      · exact ih.2 p (by simp [hp])

theorem splitOn1_of_noSep (sep : Char) (w : Str) (h : sep ∉ w) : splitOn1 sep w = [w] := by
  induction w with
  | nil => rfl
  | cons c w ih =>
    simp only [List.mem_cons, not_or] at h
    rw [splitOn1, if_neg (by simp; exact fun e => h.1 e.symm), ih h.2]

theorem splitOn1_append (sep : Char) (w r : Str) (h : sep ∉ w) : splitOn1 sep (w ++ sep :: r) = w :: splitOn1 sep r := by
  induction w with
  | nil => simp [splitOn1]
  | cons c w ih =>
    simp only [List.mem_cons, not_or] at h
    rw [List.cons_append, splitOn1, if_neg (by simp; exact fun e => h.1 e.symm), ih h.2]

theorem splitOn1_sepBy (sep : Char) (ps : List Str) (h0 : ps ≠ []) (h : ∀ p ∈ ps, sep ∉ p) : splitOn1 sep (sepBy sep ps) = ps := by
  induction ps with
  | nil => exact absurd rfl h0
  | cons p ps ih =>
    cases ps with
    | nil => exact splitOn1_of_noSep sep p (h p (by simp))
    | cons q ps =>
      rw [sepBy, splitOn1_append _ _ _ (h p (by simp)), ih (by simp) (fun p hp => h p (by simp only [List.mem_cons] at hp ⊢; tauto))]

theorem cut1_some (sep : Char) (s a b : Str) : cut1 sep s = some (a, b) ↔ s = a ++ sep :: b ∧ sep ∉ a := by
  induction s generalizing a with
  | nil => simp [cut1]
  | cons c cs ih =>
    unfold cut1
    by_cases h : c = sep
    · subst h
      rw [if_pos (by simp)]
      simp only [Option.some.injEq, Prod.mk.injEq]
      constructor
      · rintro ⟨rfl, rfl⟩; simp
      · rintro ⟨h1, h2⟩
        cases a with
        | nil => simp at h1; exact ⟨rfl, h1⟩
        | cons x a => simp at h1 h2; exact absurd h1.1 h2.1
    · rw [if_neg (by simpa using h)]
      simp only [Option.map_eq_some_iff, Prod.exists, Prod.mk.injEq]
      constructor
      · rintro ⟨x, y, h1, rfl, rfl⟩
        obtain ⟨h2, h3⟩ := (ih x).mp h1
        exact ⟨by rw [h2]; rfl, by simp only [List.mem_cons, not_or]; exact ⟨fun e => h e.symm, h3⟩⟩
      · rintro ⟨h1, h2⟩
        cases a with
        | nil => simp at h1; exact absurd h1.1 h
        | cons x a =>
          simp only [List.cons_append, List.cons.injEq, List.mem_cons, not_or] at h1 h2
          exact ⟨a, b, (ih a).mpr ⟨h1.2, h2.2⟩, by rw [h1.1], rfl⟩

theorem cut1_none (sep : Char) (s : Str) : cut1 sep s = none ↔ sep ∉ s := by
  induction s with
  | nil => simp [cut1]
  | cons c cs ih =>
    unfold cut1
    by_cases h : c = sep
    · subst h; simp
    · have h' : ¬ sep = c := fun e => h e.symm
      simp [h, h', ih]

/-! ### Trimming -/

theorem dropWhile_spaces (w r : Str) (hw : ∀ c ∈ w, isSpaceRune c = true) (hr : ∀ c, r.head? = some c → isSpaceRune c = false) :
    (w ++ r).dropWhile isSpaceRune = r := by
  induction w with
  | nil =>
    cases r with
    | nil => rfl
    | cons c r => simp [hr c rfl]
  | cons c w ih =>
    rw [List.cons_append, List.dropWhile_cons, if_pos (hw c (by simp))]
    exact ih (fun c hc => hw c (by simp [hc]))

theorem dropWhile_split (s : Str) : ∃ w, s = w ++ s.dropWhile isSpaceRune ∧ (∀ c ∈ w, isSpaceRune c = true) ∧
    ∀ c, (s.dropWhile isSpaceRune).head? = some c → isSpaceRune c = false := by
  induction s with
  | nil => exact ⟨[], by simp⟩
  | cons c s ih =>
    by_cases h : isSpaceRune c = true
    · obtain ⟨w, h1, h2, h3⟩ := ih
      refine ⟨c :: w, ?_, ?_, ?_⟩
      · rw [List.dropWhile_cons, if_pos h, List.cons_append, ← h1]
      · intro d hd
        rcases List.mem_cons.mp hd with rfl | hd
        · exact h
        · exact h2 d hd
      · rw [List.dropWhile_cons, if_pos h]; exact h3
    · refine ⟨[], ?_, by simp, ?_⟩
      · rw [List.dropWhile_cons, if_neg h]; rfl
      · rw [List.dropWhile_cons, if_neg h]
        intro d hd; simp at hd; subst hd; simpa using h

theorem trimRight_split (s : Str) : ∃ w, s = trimRightSpace s ++ w ∧ (∀ c ∈ w, isSpaceRune c = true) ∧
    ∀ c, (trimRightSpace s).getLast? = some c → isSpaceRune c = false := by
  obtain ⟨w, h1, h2, h3⟩ := dropWhile_split s.reverse
  refine ⟨w.reverse, ?_, by simpa using h2, ?_⟩
  · unfold trimRightSpace
    rw [← List.reverse_append, ← h1, List.reverse_reverse]
  · intro c hc
    unfold trimRightSpace at hc
    rw [List.getLast?_reverse] at hc
    exact h3 c hc

theorem trimRight_spaces (r w : Str) (hw : ∀ c ∈ w, isSpaceRune c = true) (hr : ∀ c, r.getLast? = some c → isSpaceRune c = false) :
    trimRightSpace (r ++ w) = r := by
  unfold trimRightSpace
  rw [List.reverse_append, dropWhile_spaces _ _ (by simpa using hw) (by simpa using hr), List.reverse_reverse]

theorem trimSpace_padded (s : Str) : Padded (trimSpace s) s := by
  obtain ⟨w1, h1, h2, h3⟩ := dropWhile_split s
  obtain ⟨w2, h4, h5, h6⟩ := trimRight_split (trimLeftSpace s)
  refine ⟨⟨w1, w2, ?_, h2, h5⟩, ?_, h6⟩
  · unfold trimSpace
    rw [List.append_assoc, ← h4]; exact h1
  · intro c hc
    have : (trimLeftSpace s).head? = some c := by
      rw [h4, List.head?_append]
      unfold trimSpace at hc
      rw [hc]; rfl
    exact h3 c this

theorem trimSpace_of_padded {t s : Str} (h : Padded t s) : trimSpace s = t := by
  obtain ⟨⟨w1, w2, rfl, h1, h2⟩, h3, h4⟩ := h
  unfold trimSpace trimLeftSpace
  cases t with
  | nil =>
    have : (w1 ++ [] ++ w2).dropWhile isSpaceRune = [] := by
      have := dropWhile_spaces (w1 ++ w2) [] (by intro c hc; rcases List.mem_append.mp hc with h | h; exact h1 c h; exact h2 c h) (by simp)
      simpa using this
    rw [this]; rfl
  | cons c t =>
    rw [List.append_assoc, dropWhile_spaces _ _ h1 (by intro d hd; exact h3 d (by simpa using hd))]
    exact trimRight_spaces _ _ h2 h4

theorem trimSpace_iff (t s : Str) : trimSpace s = t ↔ Padded t s :=
  ⟨fun h => h ▸ trimSpace_padded s, trimSpace_of_padded⟩

theorem padded_nil (s : Str) : Padded [] s ↔ ∀ c ∈ s, isSpaceRune c = true := by
  constructor
  · rintro ⟨⟨w1, w2, rfl, h1, h2⟩, -⟩
    intro c hc
    simp only [List.append_nil, List.mem_append] at hc
    rcases hc with h | h
    · exact h1 c h
    · exact h2 c h
  · intro h
    exact ⟨⟨s, [], by simp, h, by simp⟩, by simp, by simp⟩

theorem trimSpace_cons (c : Char) (s : Str) (h : isSpaceRune c = true) : trimSpace (c :: s) = trimSpace s := by
  unfold trimSpace trimLeftSpace
  rw [List.dropWhile_cons, if_pos h]

theorem trimSpace_snoc (c : Char) (s : Str) (h : isSpaceRune c = true) : trimSpace (s ++ [c]) = trimSpace s := by
  rw [trimSpace_iff]
  obtain ⟨⟨w1, w2, h1, h2, h3⟩, h4⟩ := trimSpace_padded s
  refine ⟨⟨w1, w2 ++ [c], ?_, h2, ?_⟩, h4⟩
  · conv_lhs => rw [h1]
    simp
  · intro d hd
    rcases List.mem_append.mp hd with hd | hd
    · exact h3 d hd
    · simp at hd; subst hd; exact h

theorem bar_not_space : isSpaceRune '|' = false := by decide
theorem comma_not_space : isSpaceRune ',' = false := by decide
theorem space_ne {c d : Char} (h : isSpaceRune c = true) (h' : isSpaceRune d = false) : c ≠ d := by
  rintro rfl; rw [h] at h'; cases h'

theorem splitOn1_snoc (sep c : Char) (s : Str) (h : c ≠ sep) :
    ∃ ws w, splitOn1 sep s = ws ++ [w] ∧ splitOn1 sep (s ++ [c]) = ws ++ [w ++ [c]] := by
  induction s with
  | nil => exact ⟨[], [], rfl, by simp [splitOn1, h]⟩
  | cons d s ih =>
    obtain ⟨ws, w, h1, h2⟩ := ih
    by_cases hd : d = sep
    · subst hd
      exact ⟨[] :: ws, w, by simp [splitOn1, h1], by simp [splitOn1, h2]⟩
    · cases ws with
      | nil =>
        simp only [List.nil_append] at h1 h2
        exact ⟨[], d :: w, by simp [splitOn1, hd, h1], by simp [splitOn1, hd, h2]⟩
      | cons v ws =>
        simp only [List.cons_append] at h1 h2
        exact ⟨(d :: v) :: ws, w, by simp [splitOn1, hd, h1], by simp [splitOn1, hd, h2]⟩

theorem parseMask_cons (c : Char) (s : Str) (h : isSpaceRune c = true) : parseMask (c :: s) = parseMask s := by
  obtain ⟨w, ws, h1, h2⟩ := splitOn1_cons '|' c s (space_ne h bar_not_space)
  unfold parseMask
  rw [h1, h2]
  simp [trimSpace_cons c w h]

theorem parseMask_snoc (c : Char) (s : Str) (h : isSpaceRune c = true) : parseMask (s ++ [c]) = parseMask s := by
  obtain ⟨ws, w, h1, h2⟩ := splitOn1_snoc '|' c s (space_ne h bar_not_space)
  unfold parseMask
  rw [h1, h2]
  simp [trimSpace_snoc c w h]

theorem masks_cons (c : Char) (s : Str) (h : isSpaceRune c = true) :
    (splitOn1 ',' (c :: s)).mapM parseMask = (splitOn1 ',' s).mapM parseMask := by
  obtain ⟨w, ws, h1, h2⟩ := splitOn1_cons ',' c s (space_ne h comma_not_space)
  rw [h1, h2, List.mapM_cons, List.mapM_cons, parseMask_cons c w h]

theorem masks_snoc (c : Char) (s : Str) (h : isSpaceRune c = true) :
    (splitOn1 ',' (s ++ [c])).mapM parseMask = (splitOn1 ',' s).mapM parseMask := by
  obtain ⟨ws, w, h1, h2⟩ := splitOn1_snoc ',' c s (space_ne h comma_not_space)
  rw [h1, h2, List.mapM_append, List.mapM_append, List.mapM_cons, List.mapM_cons, parseMask_snoc c w h]

theorem masks_trim (s : Str) : (splitOn1 ',' (trimSpace s)).mapM parseMask = (splitOn1 ',' s).mapM parseMask := by
  obtain ⟨⟨w1, w2, h1, h2, h3⟩, -⟩ := trimSpace_padded s
  have key : ∀ (t w2 : Str), (∀ c ∈ w2, isSpaceRune c = true) →
      (splitOn1 ',' (t ++ w2)).mapM parseMask = (splitOn1 ',' t).mapM parseMask := by
    intro t w2
    induction w2 generalizing t with
    | nil => simp
    | cons c w ih =>
      intro h
      rw [show t ++ c :: w = (t ++ [c]) ++ w by simp, ih _ (fun c hc => h c (by simp [hc])), masks_snoc c t (h c (by simp))]
  have key1 : ∀ (w1 t : Str), (∀ c ∈ w1, isSpaceRune c = true) →
      (splitOn1 ',' (w1 ++ t)).mapM parseMask = (splitOn1 ',' t).mapM parseMask := by
    intro w1 t
    induction w1 with
    | nil => simp
    | cons c w ih =>
      intro h
      rw [List.cons_append, masks_cons c _ (h c (by simp)), ih (fun c hc => h c (by simp [hc]))]
  conv_rhs => rw [h1, List.append_assoc, key1 _ _ h2, key _ _ h3]

theorem mapM_ok {α β ε : Type} (f : α → Except ε β) (xs : List α) (ys : List β) :
    xs.mapM f = .ok ys ↔ List.Forall₂ (fun y x => f x = .ok y) ys xs := by
  induction xs generalizing ys with
  | nil =>
    rw [List.mapM_nil, List.forall₂_nil_right_iff]
    exact ⟨fun h => (Except.ok.inj h).symm, fun h => by rw [h]; rfl⟩
  | cons x xs ih =>
    rw [List.mapM_cons]
    cases hx : f x with
    | error e =>
      constructor
      · intro h; cases h
      · intro h
        cases h with
        | cons h1 h2 => rw [hx] at h1; cases h1
    | ok y =>
      cases hxs : xs.mapM f with
      | error e =>
        constructor
        · intro h; cases h
        · intro h
          cases h with
          | cons h1 h2 => rw [← ih, hxs] at h2; cases h2
      | ok ys' =>
        have : (do let b ← Except.ok (ε := ε) y; let bs ← Except.ok (ε := ε) ys'; pure (b :: bs)) = Except.ok (y :: ys') := rfl
        rw [this]
        constructor
        · intro h
          rw [← Except.ok.inj h]
          exact .cons hx ((ih ys').mp hxs)
        · intro h
          cases h with
          | cons h1 h2 =>
            rw [hx] at h1
            rw [← ih, hxs] at h2
            rw [Except.ok.inj h1, Except.ok.inj h2]

theorem parseMask_ok (s : Str) (mask : Mask) (hc : ',' ∉ s) : parseMask s = .ok mask ↔ WritesMask mask s := by
  unfold parseMask WritesMask
  constructor
  · intro h
    simp only at h
    split at h
    · cases h
    · rename_i hn
      obtain rfl := Except.ok.inj h
      obtain ⟨h1, h2⟩ := splitOn1_spec '|' s
      refine ⟨splitOn1 '|' s, splitOn1_ne_nil _ _, h1.symm, ?_, ?_, ?_⟩
      · rw [List.forall₂_map_left_iff]
        exact List.forall₂_same.mpr (fun p _ => trimSpace_padded p)
      · intro n hmem he
        exact hn (List.any_eq_true.mpr ⟨n, hmem, by simp [he]⟩)
      · intro p hp
        refine ⟨h2 p hp, fun hcp => hc ?_⟩
        rw [← h1]
        clear h1 h2 hn h hc
        generalize splitOn1 '|' s = l at hp ⊢
        induction l with
        | nil => cases hp
        | cons q qs ih =>
          cases qs with
          | nil => simp at hp; subst hp; exact hcp
          | cons r qs =>
            rw [sepBy]
            rcases List.mem_cons.mp hp with rfl | hp
            · simp [hcp]
            · simp [ih hp]
  · rintro ⟨ps, h0, rfl, h1, h2, h3⟩
    rw [splitOn1_sepBy '|' ps h0 (fun p hp => (h3 p hp).1)]
    have : ps.map trimSpace = mask := by
      clear h0 h2 h3 hc
      induction h1 with
      | nil => rfl
      | cons h _ ih => rw [List.map_cons, trimSpace_of_padded h, ih]
    rw [this]
    simp only
    rw [if_neg]
    intro h
    obtain ⟨n, hn, he⟩ := List.any_eq_true.mp h
    exact h2 n hn (by simpa using he)

theorem writesMask_noComma {mask : List Str} {s : Str} (h : WritesMask mask s) : ',' ∉ s := by
  obtain ⟨ps, -, rfl, -, -, h3⟩ := h
  induction ps with
  | nil => simp [sepBy]
  | cons p ps ih =>
    cases ps with
    | nil => exact (h3 p (by simp)).2
    | cons q ps =>
      rw [sepBy, List.mem_append, List.mem_cons]
      rintro (h | h | h)
      · exact (h3 p (by simp)).2 h
      · simp at h
      · exact ih (fun p hp => h3 p (by simp only [List.mem_cons] at hp ⊢; tauto)) h

theorem masks_ok (s : Str) (masks : List Mask) :
    (splitOn1 ',' s).mapM parseMask = .ok masks ↔ ∃ ps, ps ≠ [] ∧ s = sepBy ',' ps ∧ List.Forall₂ WritesMask masks ps := by
  rw [mapM_ok]
  obtain ⟨h1, h2⟩ := splitOn1_spec ',' s
  constructor
  · intro h
    refine ⟨_, splitOn1_ne_nil ',' s, h1.symm, ?_⟩
    clear h1
    generalize splitOn1 ',' s = l at h h2
    induction h with
    | nil => exact .nil
    | cons h _ ih =>
      exact .cons ((parseMask_ok _ _ (h2 _ (by simp))).mp h) (ih (fun p hp => h2 p (by simp [hp])))
  · rintro ⟨ps, h0, rfl, h⟩
    have hn : ∀ p ∈ ps, ',' ∉ p := by
      clear h0 h1 h2
      induction h with
      | nil => simp
      | cons h _ ih =>
        intro p hp
        rcases List.mem_cons.mp hp with rfl | hp
        · exact writesMask_noComma h
        · exact ih p hp
    rw [splitOn1_sepBy ',' ps h0 hn]
    clear h0 h1 h2
    induction h with
    | nil => exact .nil
    | cons h _ ih => exact .cons ((parseMask_ok _ _ (hn _ (by simp))).mpr h) (ih (fun p hp => hn p (by simp [hp])))

end Verif
