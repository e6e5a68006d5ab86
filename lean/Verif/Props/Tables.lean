import Verif.Model.Tables.All
import Verif.Spec.Masks
import Mathlib.Logic.Basic
/-!
# C34: the built-in directive tables
-/
namespace Verif
open Spec

/-- Some bit of `m` in the range `lo ≤ i < hi` is set. -/
def anyBit (m lo hi : Nat) : Bool := (m >>> lo) % 2 ^ (hi - lo) != 0

theorem anyBit_iff (m lo hi : Nat) : anyBit m lo hi = true ↔ ∃ i, lo ≤ i ∧ i < hi ∧ m.testBit i = true := by
  unfold anyBit
  rw [bne_iff_ne, ne_eq, ← not_iff_not, not_not, not_exists]
  constructor
  · intro h i ⟨h1, h2, h3⟩
    have := Nat.testBit_mod_two_pow (m >>> lo) (hi - lo) (i - lo)
    rw [h, Nat.zero_testBit, Nat.testBit_shiftRight, show lo + (i - lo) = i by omega, h3] at this
    simp at this; omega
  · intro h
    apply Nat.eq_of_testBit_eq
    intro j
    rw [Nat.zero_testBit, Nat.testBit_mod_two_pow, Nat.testBit_shiftRight]
    by_cases hj : j < hi - lo
    · have := h (lo + j)
      simp only [not_and, Bool.not_eq_true] at this
      simp [this (by omega) (by omega)]
    · simp [hj]

/-- The names with a mask that names no context. -/
def contextless : List String := ["status", "header", "trusted_certificate"]

def maskFine (m : Nat) : Bool := (anyBit m 0 8 || anyBit m 10 14) && decide (m < 2 ^ 33)

theorem tables_fine : allTables.all (fun t => t.2.all (fun e => e.2.all maskFine && !e.2.isEmpty)) = true := by
  decide +kernel

/-- C34.  Every entry of every built-in table has at least one mask, and every mask allows some number of arguments. -/
theorem C34_masks (t : String × DirTable) (ht : t ∈ allTables) (name : Str) (ms : List Nat) (h : t.2.get name = some ms) :
    ms ≠ [] ∧ ∀ m ∈ ms, m < 2 ^ 33 ∧ ∃ args, ArgsOk m args := by
  have h1 := List.all_eq_true.mp tables_fine t ht
  unfold DirTable.get at h
  obtain ⟨e, he, rfl⟩ := Option.map_eq_some_iff.mp h
  have h2 := List.all_eq_true.mp h1 e (List.mem_of_find?_eq_some he)
  rw [Bool.and_eq_true] at h2
  refine ⟨by simpa using h2.2, fun m hm => ?_⟩
  have h3 := List.all_eq_true.mp h2.1 m hm
  unfold maskFine at h3
  rw [Bool.and_eq_true, Bool.or_eq_true, anyBit_iff, anyBit_iff, decide_eq_true_iff] at h3
  refine ⟨h3.2, ?_⟩
  rcases h3.1 with ⟨i, -, h5, h6⟩ | ⟨i, h4, h5, h6⟩
  · exact ⟨List.replicate i [], Or.inl ⟨by simp; omega, by simpa using h6⟩⟩
  · have : i = 10 ∨ i = 11 ∨ i = 12 ∨ i = 13 := by omega
    rcases this with rfl | rfl | rfl | rfl
    · exact ⟨[c!"on"], Or.inr (Or.inl ⟨h6, _, rfl, Or.inl ⟨_, _, rfl, Or.inl rfl, Or.inl rfl⟩⟩)⟩
    · exact ⟨[], Or.inr (Or.inr (Or.inl h6))⟩
    · exact ⟨[[]], Or.inr (Or.inr (Or.inr (Or.inl ⟨h6, by simp⟩)))⟩
    · exact ⟨[[], []], Or.inr (Or.inr (Or.inr (Or.inr ⟨h6, by simp⟩)))⟩


theorem tables_contexts :
    allTables.all (fun t => t.2.all (fun e => e.2.all (fun m => anyBit m 17 33) || contextless.contains e.1)) = true := by
  decide +kernel

/-- C34, the part on contexts.  It fails for three directive names (`C34_false`): `status`, `header`, `trusted_certificate`.  For all
others every mask names a context. -/
theorem C34_contexts_partial (t : String × DirTable) (ht : t ∈ allTables) (name : Str) (ms : List Nat)
    (h : t.2.get name = some ms)
    (hn : name ≠ c!"status" ∧ name ≠ c!"header" ∧ name ≠ c!"trusted_certificate") :
    ∀ m ∈ ms, ∃ i, 17 ≤ i ∧ i ≤ 32 ∧ m.testBit i = true := by
  have h1 := List.all_eq_true.mp tables_contexts t ht
  unfold DirTable.get at h
  obtain ⟨e, he, rfl⟩ := Option.map_eq_some_iff.mp h
  have h2 := List.all_eq_true.mp h1 e (List.mem_of_find?_eq_some he)
  have hname : e.1.toList = name := by simpa using List.find?_some he
  rw [Bool.or_eq_true] at h2
  rcases h2 with h2 | h2
  · intro m hm
    have := List.all_eq_true.mp h2 m hm
    rw [anyBit_iff] at this
    obtain ⟨i, h3, h4, h5⟩ := this
    exact ⟨i, h3, by omega, h5⟩
  · exfalso
    simp only [contextless, List.contains_iff_mem, List.mem_cons, List.not_mem_nil, or_false] at h2
    rcases h2 with h2 | h2 | h2 <;> rw [h2] at hname <;> subst hname
    · exact hn.1 (by decide)
    · exact hn.2.1 (by decide)
    · exact hn.2.2 (by decide)

/-- C34 is false as stated: the OTel table knows `header` with a mask that names no context, so that `header` is
rejected everywhere. -/
theorem C34_false : ∃ t ∈ allTables, ∃ name ms m, t.2.get name = some ms ∧ m ∈ ms ∧
    ¬ ∃ i, 17 ≤ i ∧ i ≤ 32 ∧ m.testBit i = true := by
  refine ⟨("MatchOtelLatest", otelDirectives), by simp [allTables], c!"header", [ngxConfTake2], ngxConfTake2, ?_, by simp, ?_⟩
  · decide +kernel
  · rintro ⟨i, h1, -, h3⟩
    rw [show ngxConfTake2 = 2 ^ 2 from rfl, Nat.testBit_two_pow] at h3
    simp at h3; omega

/-- C34.  The default table: the OTel table wins over njs, njs over NGINX Plus; a name in none of them is unknown. -/
theorem C34_default_union (name : Str) :
    defaultDirectivesMatch name =
      match DirTable.get otelDirectives name, DirTable.get njsDirectives name with
      | some ms, _ => some ms
      | none, some ms => some ms
      | none, none => DirTable.get nginxPlusLatestDirectives name := by
  unfold defaultDirectivesMatch unionBitmaskMaps
  cases h1 : DirTable.get nginxPlusLatestDirectives name <;> cases h2 : DirTable.get njsDirectives name <;>
    cases h3 : DirTable.get otelDirectives name <;> simp [h1, h2, h3]

/-- C34.  For any list of tables the last one that has the name decides. -/
theorem C34_union (pre post : List DirTable) (t : DirTable) (name : Str) (ms : List Nat) (h : t.get name = some ms)
    (hpost : ∀ t' ∈ post, t'.get name = none) : unionBitmaskMaps (pre ++ t :: post) name = some ms := by
  unfold unionBitmaskMaps
  rw [List.foldl_append, List.foldl_cons, h]
  simp only
  induction post with
  | nil => rfl
  | cons t' post ih =>
    rw [List.foldl_cons, hpost t' (by simp)]
    exact ih (fun t'' h => hpost t'' (by simp [h]))

/-- C34.  A name in no table is unknown. -/
theorem C34_union_unknown (ts : List DirTable) (name : Str) (h : ∀ t ∈ ts, t.get name = none) :
    unionBitmaskMaps ts name = none := by
  unfold unionBitmaskMaps
  induction ts with
  | nil => rfl
  | cons t' ts ih =>
    rw [List.foldl_cons, h t' (by simp)]
    exact ih (fun t'' h' => h t'' (by simp [h']))

example : unionBitmaskMaps [[("a", [1]), ("b", [2])], [("b", [3, 4])]] c!"b" = some [3, 4] ∧
    unionBitmaskMaps [[("a", [1]), ("b", [2])], [("b", [3, 4])]] c!"a" = some [1] ∧
    unionBitmaskMaps [[("a", [1]), ("b", [2])], [("b", [3, 4])]] c!"c" = none := by decide

example : DirTable.get njsDirectives c!"js_path" ≠ none := by decide +kernel

end Verif
