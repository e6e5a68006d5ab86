import Verif.Proofs.Combine
/-!
# C35-C38: combining configs

`combined fuel p` with `Res.fuel` as result means that the recursion goes deeper than `fuel`; a Go run of `Combined` gives the
result of every sufficiently large `fuel`, and does not terminate if there is none.
-/
namespace Verif
open Spec

/-! ## C35 -/

/-- C35.  A payload without configs is returned as it is. -/
theorem C35_no_configs (fuel : Nat) (p : Payload) (h : p.config = []) : combined fuel p = .ok p := by
  unfold combined; rw [h]

/-- C35.  A payload with configs is combined into one config whose directives are the expansion of the first config's. -/
theorem C35_combined_iff (p q : Payload) (c0 : Config) (rest : List Config) (h : p.config = c0 :: rest) :
    (∃ fuel, combined fuel p = .ok q) ↔
    ∃ out st, Expands p.config c0.parsed out ∧ (st = c!"failed" ∧ (∃ c ∈ p.config, c.status = c!"failed") ∨
        st = c!"ok" ∧ ∀ c ∈ p.config, c.status ≠ c!"failed") ∧
      q = { status := if p.status = [] then c!"ok" else p.status
            errors := p.errors
            config := [{ file := c0.file, status := st, errors := p.config.flatMap (·.errors), parsed := out }] } := by
  have hst : ∀ st : Str, (st = c!"failed" ∧ (∃ c ∈ p.config, c.status = c!"failed") ∨
      st = c!"ok" ∧ ∀ c ∈ p.config, c.status ≠ c!"failed") ↔
      st = if p.config.any (fun c => c.status == c!"failed") then c!"failed" else c!"ok" := by
    intro st
    by_cases hf : ∃ c ∈ p.config, c.status = c!"failed"
    · have : p.config.any (fun c => c.status == c!"failed") = true := by simpa using hf
      rw [if_pos this]
      constructor
      · rintro (⟨h, -⟩ | ⟨-, h⟩)
        · exact h
        · obtain ⟨c, h1, h2⟩ := hf; exact absurd h2 (h c h1)
      · intro h; exact Or.inl ⟨h, hf⟩
    · have : ¬ p.config.any (fun c => c.status == c!"failed") = true := by simpa using hf
      rw [if_neg this]
      constructor
      · rintro (⟨-, h⟩ | ⟨h, -⟩)
        · exact absurd h hf
        · exact h
      · intro h; exact Or.inr ⟨h, fun c h1 h2 => hf ⟨c, h1, h2⟩⟩
  simp only [hst]
  constructor
  · rintro ⟨fuel, hq⟩
    unfold combined at hq
    split at hq
    · rename_i hn; rw [h] at hn; cases hn
    · rename_i c0' rest' hc
      obtain ⟨rfl, rfl⟩ := List.cons.inj (h.symm.trans hc)
      obtain ⟨out, h1, h2⟩ := Res.bind_ok.mp hq
      simp only [Res.ok.injEq] at h2
      refine ⟨out, _, performIncludes_ok _ _ _ _ h1, rfl, ?_⟩
      rw [← h2]; simp
  · rintro ⟨out, st, h1, rfl, rfl⟩
    obtain ⟨n, hn⟩ := expands_run h1
    refine ⟨n + 1, ?_⟩
    unfold combined
    split
    · rename_i hn; rw [h] at hn; cases hn
    · rename_i c0' rest' hc
      obtain ⟨rfl, rfl⟩ := List.cons.inj (h.symm.trans hc)
      rw [performIncludes, hn n (by omega)]
      simp [Res.bind]

/-- C35.  No resolved include is left, at any depth. -/
theorem C35_no_include_left {fuel : Nat} {p q : Payload} (hp : p.config ≠ []) (h : combined fuel p = .ok q) :
    ∀ c ∈ q.config, ∀ d, Within d c.parsed → ¬ IsInclude d := by
  cases hc : p.config with
  | nil => exact absurd hc hp
  | cons c0 rest =>
    obtain ⟨out, st, h1, -, rfl⟩ := (C35_combined_iff p q c0 rest hc).mp ⟨fuel, h⟩
    intro c hc d hd
    obtain rfl := List.mem_singleton.mp hc
    exact expands_clean h1 d hd

/-- An example: two levels, and the second config included twice. -/
example : combined 9 { config := [
      { file := c!"a", parsed := [⟨c!"x", 1, [], [], none, some [⟨c!"include", 2, [c!"b"], [], some [1], none, none, false⟩], none, false⟩,
        ⟨c!"include", 3, [c!"b"], [], some [1, 2], none, none, false⟩] },
      { file := c!"b", status := c!"failed", parsed := [⟨c!"include", 1, [c!"c"], [], some [2], none, none, false⟩] },
      { file := c!"c", parsed := [⟨c!"y", 1, [], [], none, none, none, false⟩] }] } =
    .ok { status := c!"ok", config := [{ file := c!"a", status := c!"failed", parsed :=
      [⟨c!"x", 1, [], [], none, some [⟨c!"y", 1, [], [], none, none, none, false⟩], none, false⟩,
       ⟨c!"y", 1, [], [], none, none, none, false⟩, ⟨c!"y", 1, [], [], none, none, none, false⟩] }] } := by
  simp [combined, performIncludes, expandList, expandDir, expandOpt, expandIncludes, Res.bind, Directive.isInclude]

/-! ## C36 -/

/-- C36.  Errors and status of the combined payload and config. -/
theorem C36_errors_status {fuel : Nat} {p q : Payload} (hp : p.config ≠ []) (h : combined fuel p = .ok q) :
    q.errors = p.errors ∧ (p.status ≠ [] → q.status = p.status) ∧ (p.status = [] → q.status = c!"ok") ∧
    ∃ c, q.config = [c] ∧ c.errors = (p.config.map (·.errors)).flatten ∧
      (c.status = c!"failed" ∨ c.status = c!"ok") ∧
      (c.status = c!"failed" ↔ ∃ c' ∈ p.config, c'.status = c!"failed") := by
  cases hc : p.config with
  | nil => exact absurd hc hp
  | cons c0 rest =>
    obtain ⟨out, st, h1, h2, rfl⟩ := (C35_combined_iff p q c0 rest hc).mp ⟨fuel, h⟩
    refine ⟨rfl, fun h => by simp [h], fun h => by simp [h], _, rfl, by simp [hc, List.flatMap], ?_, ?_⟩
    · rcases h2 with ⟨h2, -⟩ | ⟨h2, -⟩
      · exact Or.inl h2
      · exact Or.inr h2
    · rw [← hc]
      rcases h2 with ⟨h2, h3⟩ | ⟨h2, h3⟩
      · exact ⟨fun _ => h3, fun _ => h2⟩
      · constructor
        · intro h; rw [h2] at h; simp at h
        · rintro ⟨c', h4, h5⟩; exact absurd h5 (h3 c' h4)

/-! ## C37 -/

/-- C37.  Whenever combining terminates and no negative index is reached, it fails iff some index that is not smaller than the
number of configs is named by an include that is reached. -/
theorem C37_error_iff {fuel : Nat} {p : Payload} (hterm : combined fuel p ≠ .fuel)
    (hneg : ∀ i d j, Reach p.config i → Names p.config i d j → 0 ≤ j) :
    (∃ e, combined fuel p = .err e) ↔ ∃ i d j, Reach p.config i ∧ Names p.config i d j ∧ j ≥ p.config.length := by
  cases hc : p.config with
  | nil =>
    constructor
    · rintro ⟨e, he⟩; rw [C35_no_configs fuel p hc] at he; cases he
    · rintro ⟨i, d, j, -, ⟨c, h, -⟩, -⟩; simp at h
  | cons c0 rest =>
    rw [← hc]
    have h0 : p.config[0]? = some c0 := by rw [hc]; rfl
    constructor
    · rintro ⟨e, he⟩
      unfold combined at he
      split at he
      · cases he
      · rename_i c0' rest' hc'
        obtain ⟨rfl, rfl⟩ := List.cons.inj (hc.symm.trans hc')
        rcases Res.bind_err.mp he with he | ⟨a, -, he⟩
        · obtain ⟨i, c, d, nb, j, h1, h2, h3, h4, h5⟩ := performIncludes_err fuel .zero h0 he
          exact ⟨i, d, j, h1, h3, h4⟩
        · cases he
    · rintro ⟨i, d, j, hr, hn, hj⟩
      cases h : combined fuel p with
      | err e => exact ⟨e, rfl⟩
      | fuel => exact absurd h hterm
      | ok q =>
        obtain ⟨out, st, h1, -, -⟩ := (C35_combined_iff p q c0 rest hc).mp ⟨fuel, h⟩
        obtain ⟨c, out', hci, he⟩ := reach_expands h0 h1 hr
        obtain ⟨c', hc', hw, hi, hj'⟩ := hn
        rw [hci] at hc'; cases hc'
        obtain ⟨k, c', -, rfl, hk, -⟩ := expands_valid he d hw hi j hj'
        have := (List.getElem?_eq_some_iff.mp hk).1
        omega
      | panic =>
        unfold combined at h
        split at h
        · cases h
        · rename_i c0' rest' hc'
          obtain ⟨rfl, rfl⟩ := List.cons.inj (hc.symm.trans hc')
          rcases Res.bind_panic.mp h with h | ⟨a, -, h⟩
          · obtain ⟨i, d, j, h1, h2, h3⟩ := performIncludes_panic fuel .zero h0 h
            have := hneg i d j h1 h2
            omega
          · cases h

/-- C37.  The error names the index, the file and the line of an include that is reached. -/
theorem C37_error_names {fuel : Nat} {p : Payload} {e : GoErr} (h : combined fuel p = .err e) :
    ∃ i c d j, Reach p.config i ∧ p.config[i]? = some c ∧ Names p.config i d j ∧ j ≥ p.config.length ∧
    ∃ pe, e = .parse pe ∧ pe.what = c!"include config with index: " ++ decimal j ∧ pe.file = some c.file ∧
      pe.line = some d.line ∧ pe.orig = none := by
  unfold combined at h
  split at h
  · cases h
  · rename_i c0 rest hc
    have h0 : p.config[0]? = some c0 := by rw [hc]; rfl
    rcases Res.bind_err.mp h with h | ⟨a, -, h⟩
    · obtain ⟨i, c, d, nb, j, h1, h2, h3, h4, rfl⟩ := performIncludes_err fuel .zero h0 h
      exact ⟨i, c, d, j, h1, h2, h3, h4, _, rfl, rfl, rfl, rfl, rfl⟩
    · cases h

/-- C37.  If no chain of includes from the first config is infinite (`rank` decreases along includes), combining terminates,
with recursion no deeper than the rank of the first config. -/
theorem C37_terminates (p : Payload) (rank : Nat → Nat)
    (hrank : ∀ i d (j : Nat), Reach p.config i → Names p.config i d (j : Int) → j < p.config.length → rank j < rank i)
    (fuel : Nat) (hf : rank 0 < fuel) : combined fuel p ≠ .fuel := by
  intro h
  unfold combined at h
  split at h
  · cases h
  · rename_i c0 rest hc
    have h0 : p.config[0]? = some c0 := by rw [hc]; rfl
    rcases Res.bind_fuel.mp h with h | ⟨a, -, h⟩
    · exact performIncludes_fuel rank hrank fuel .zero h0 hf h
    · cases h

/-- An include of config 7 in a payload with one config; `combined` panics on a negative index. -/
example : combined 9 { config := [
      { file := c!"a", parsed := [⟨c!"include", 3, [c!"b"], [], some [7], none, none, false⟩] }] } =
    .err (.parse { what := c!"include config with index: 7", file := some c!"a", line := some 3,
                   statement := c!"include b" }) ∧
  combined 9 { config := [
      { file := c!"a", parsed := [⟨c!"include", 3, [c!"b"], [], some [-1], none, none, false⟩] }] } = .panic := by
  constructor <;>
  simp [combined, performIncludes, expandList, expandDir, expandOpt, expandIncludes, Res.bind, Directive.isInclude,
    indexError, Directive.string, joinStr]
  decide

/-! ## C38 -/

/-- C38.  A combined payload is combined into itself. -/
theorem C38_idempotent {fuel : Nat} {p q : Payload} (h : combined fuel p = .ok q) (n : Nat) : combined (n + 1) q = .ok q := by
  by_cases hp : p.config = []
  · rw [C35_no_configs fuel p hp] at h
    cases h
    exact C35_no_configs _ _ hp
  · cases hc : p.config with
    | nil => exact absurd hc hp
    | cons c0 rest =>
      have hclean := C35_no_include_left hp h
      obtain ⟨out, st, h1, h2, rfl⟩ := (C35_combined_iff p q c0 rest hc).mp ⟨fuel, h⟩
      simp only [List.mem_singleton, forall_eq] at hclean
      unfold combined
      simp only
      rw [performIncludes, expandList_clean _ _ _ hclean]
      simp only [Res.bind, Res.ok.injEq, Payload.mk.injEq, true_and]
      constructor
      · by_cases hs : p.status = []
        · simp [hs]
        · simp [hs]
      · have : st = c!"failed" ∨ st = c!"ok" := by
          rcases h2 with ⟨h, -⟩ | ⟨h, -⟩
          · exact Or.inl h
          · exact Or.inr h
        rcases this with rfl | rfl <;> simp

end Verif
