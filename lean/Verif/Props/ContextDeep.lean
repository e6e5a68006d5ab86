import Verif.Props.Context
/-!
# C29: the depths at which it fails
-/
namespace Verif
open Spec

/-- The directives in `n` blocks named `a`. -/
def nested : Nat → List Directive → List Directive
  | 0, ds => ds
  | n + 1, ds => [blk c!"a" 1 [] (nested n ds)]

/-- `n` blocks named `a`, in the last one the block `d` with an include directive, and then the block `map`. -/
def deepText (n : Nat) : Str := (List.replicate n c!"a{").flatten ++ c!"d{include x;}map{}" ++ List.replicate n '}'

def deepEnv (n : Nat) : Env := exEnv [(c!"/e/n", deepText n), (c!"/e/x", c!"y z;")]

def deepTree (n : Nat) : List Directive := nested n [blk c!"d" 1 [] [incl 1 c!"x" [1]], blk c!"map" 1 [] []]

/-- The depths up to 32 at which `append` does not move a context to a new array. -/
def deepDepths : List Nat := [4, 6, 7, 8, 10, 11, 12, 13, 14, 15, 16, 18, 19, 20, 21, 22, 23, 24, 25, 26, 27, 28, 29, 30, 31, 32]

theorem deep_parse : ∀ n ∈ deepDepths, Parse (deepEnv (n - 1)) 3 c!"/e/n" exOpts = .ok (okPayload [(c!"/e/n", deepTree (n - 1)), (c!"/e/x", [param c!"y" 1 [c!"z"]])]) := by
  decide +kernel

theorem nested_at (d : Directive) {ds : List Directive} {c : List Str} : ∀ (n : Nat) (ctx : List Str), At d (ctx ++ List.replicate n c!"a") ds c → At d ctx (nested n ds) c
  | 0, ctx, h => by rw [nested]; simpa using h
  | n + 1, ctx, h => by
    refine .deep (List.mem_singleton.mpr rfl) rfl (nested_at d n _ ?_)
    have e : enter ctx c!"a" ++ List.replicate n c!"a" = ctx ++ List.replicate (n + 1) c!"a" := by
      have : enter ctx c!"a" = ctx ++ [c!"a"] := by unfold enter; rw [if_neg]; rintro ⟨-, h⟩; revert h; decide
      rw [this, List.replicate_succ]; simp
    show At d (enter ctx c!"a" ++ _) ds c
    rw [e]; exact h

theorem nested_only {ds : List Directive} {P : Directive → Prop} (hP : ∀ d ctx c, At d ctx ds c → d.includes ≠ none → P d) :
    ∀ (n : Nat) {d : Directive} {ctx c : List Str}, At d ctx (nested n ds) c → d.includes ≠ none → P d
  | 0, d, ctx, c, h, hi => hP d ctx c h hi
  | n + 1, d, ctx, c, h, hi => by
    cases h with
    | here h => rw [List.mem_singleton.mp h] at hi; exact absurd rfl hi
    | deep hm hb h => rw [List.mem_singleton.mp hm] at hb h; cases hb; exact nested_only hP n h hi

/-- **C29** fails at every depth up to 32 that is not one of those at which C29_partial shows it: there is a configuration with one include directive, which stands in `n`
blocks, and whose file is parsed in another context. -/
theorem C29_false_depth {n : Nat} (hn : n ≤ 32) (hf : ¬ Fresh n) : ∃ (env : Env) (o : ParseOptions) (c0 c1 : Config) (i : Directive) (ctx : List Str), o.combineConfigs = false ∧
    Parse env 3 c!"/e/n" o = .ok { status := c!"ok", config := [c0, c1] } ∧ ctx.length = n ∧ ctx.getLast? = some c!"d" ∧
    At i [] c0.parsed ctx ∧ i.includes = some [1] ∧ (∀ d c, At d [] c0.parsed c → d.includes ≠ none → d = i) ∧
    ∃ d ∈ c1.parsed, d.isMapBlockParameter = true := by
  have hmem : n ∈ deepDepths := by
    have h : ∀ m < 33, m ∈ deepDepths ∨ m ≤ 1 ∨ m = 2 ∨ m = 3 ∨ m = 5 ∨ m = 9 ∨ m = 17 := by decide
    rcases h n (by omega) with h | h | h | h | h | h | h
    · exact h
    · exact absurd (Or.inl h) hf
    · exact absurd (Or.inr ⟨0, by omega, h⟩) hf
    · exact absurd (Or.inr ⟨1, by omega, h⟩) hf
    · exact absurd (Or.inr ⟨2, by omega, h⟩) hf
    · exact absurd (Or.inr ⟨3, by omega, h⟩) hf
    · exact absurd (Or.inr ⟨4, by omega, h⟩) hf
  have hpos : 0 < n := by
    cases n with
    | zero => exact absurd hmem (by decide)
    | succ n => omega
  refine ⟨deepEnv (n - 1), exOpts, ⟨c!"/e/n", c!"ok", [], deepTree (n - 1)⟩, ⟨c!"/e/x", c!"ok", [], [param c!"y" 1 [c!"z"]]⟩, incl 1 c!"x" [1],
    List.replicate (n - 1) c!"a" ++ [c!"d"], rfl, deep_parse n hmem, by simp; omega, by simp, ?_, rfl, ?_, _, List.mem_singleton.mpr rfl, rfl⟩
  · refine nested_at _ _ _ (.deep (List.mem_cons_self ..) rfl ?_)
    have e : enter ([] ++ List.replicate (n - 1) c!"a") c!"d" = List.replicate (n - 1) c!"a" ++ [c!"d"] := by
      unfold enter; rw [if_neg, List.nil_append]; rintro ⟨-, h⟩; revert h; decide
    show At _ (enter ([] ++ List.replicate (n - 1) c!"a") c!"d") _ _
    rw [e]
    exact .here (List.mem_singleton.mpr rfl)
  · intro d c h hi
    refine nested_only (P := fun d => d = incl 1 c!"x" [1]) ?_ (n - 1) h hi
    intro d ctx c h hi
    cases h with
    | here h => simp [blk] at h; rcases h with rfl | rfl <;> simp at hi
    | deep hm hb h =>
      simp [blk] at hm
      rcases hm with rfl | rfl <;> cases hb
      · cases h with
        | here h => exact List.mem_singleton.mp h
        | deep hm hb h => rw [List.mem_singleton.mp hm] at hb; cases hb
      · cases h with
        | here h => cases h
        | deep hm hb h => cases hm

/-- The file for depth 6. -/
example : deepText 5 = c!"a{a{a{a{a{d{include x;}map{}}}}}}" := by decide

end Verif
