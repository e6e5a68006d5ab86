import Verif.Model.Parse
import Mathlib.Order.WellFounded
import Mathlib.Data.Fintype.Card
import Mathlib.Data.Fintype.Sets
import Mathlib.Data.Fintype.EquivFin
import Mathlib.Order.RelClasses
import Mathlib.Data.List.Nodup
/-!
# Kahn's algorithm (`isAcyclic`)

`G` is the list of edges, with repetitions.
-/
namespace Verif

theorem lookup_mapSet {α : Type} (m : List (Str × α)) (k : Str) (v : α) (x : Str) :
    (mapSet m k v).lookup x = if x = k then some v else m.lookup x := by
  induction m with
  | nil =>
    by_cases h : x = k
    · simp [mapSet, h]
    · simp [mapSet, List.lookup_cons, beq_false_of_ne h, h]
  | cons e m ih =>
    obtain ⟨a, b⟩ := e
    unfold mapSet
    by_cases hk : a = k
    · subst hk
      simp only [beq_self_eq_true, if_true, List.lookup_cons]
      by_cases h : x = a
      · simp [h]
      · simp [beq_false_of_ne h, h]
    · simp only [beq_false_of_ne hk, Bool.false_eq_true, if_false, List.lookup_cons]
      by_cases h : x = a
      · subst h; simp [hk]
      · simp only [beq_false_of_ne h]
        exact ih

theorem mapSet_keys {α : Type} (m : List (Str × α)) (k : Str) (v : α) :
    (mapSet m k v).map (·.1) = if k ∈ m.map (·.1) then m.map (·.1) else m.map (·.1) ++ [k] := by
  induction m with
  | nil => simp [mapSet]
  | cons e m ih =>
    unfold mapSet
    by_cases hk : e.1 = k
    · simp [hk]
    · simp only [beq_false_of_ne hk, Bool.false_eq_true, if_false, List.map_cons, List.mem_cons]
      have : ¬ k = e.1 := fun h => hk h.symm
      rw [ih]
      by_cases hm : k ∈ m.map (·.1)
      · rw [if_pos hm, if_pos (Or.inr hm)]
      · rw [if_neg hm, if_neg (by rintro (h | h); exacts [this h, hm h])]
        rfl

/-- The in-degree of a file (0 for a missing key, as in Go). -/
def inDeg (indeg : List (Str × Int)) (k : Str) : Int := (indeg.lookup k).getD 0

theorem inDeg_mapSet (m : List (Str × Int)) (k : Str) (v : Int) (x : Str) :
    inDeg (mapSet m k v) x = if x = k then v else inDeg m x := by
  unfold inDeg
  rw [lookup_mapSet]
  split <;> rfl

/-- The edges out of a file. -/
def outEdges (edges : List (Str × List Str)) (u : Str) : List Str := (edges.lookup u).getD []

theorem kahnEdges_spec (fs : List Str) (R : List Str) : ∀ (indeg : List (Str × Int)) (queue : List Str),
    (∀ k, inDeg indeg k = ((fs ++ R).count k : Nat)) →
    (∀ k, inDeg (kahnEdges indeg queue fs).1 k = (R.count k : Nat)) ∧
    ∃ new, (kahnEdges indeg queue fs).2 = queue ++ new ∧ new.Nodup ∧ ∀ k, k ∈ new ↔ k ∈ fs ∧ k ∉ R := by
  induction fs with
  | nil => exact fun indeg queue h => ⟨h, [], by simp [kahnEdges], .nil, by simp⟩
  | cons f fs ih =>
    intro indeg queue h
    unfold kahnEdges
    change (∀ k, inDeg (kahnEdges (mapSet indeg f (inDeg indeg f - 1)) (if inDeg indeg f - 1 == 0 then queue ++ [f] else queue) fs).1 k = _) ∧ _
    have hv : inDeg indeg f - 1 = ((fs ++ R).count f : Nat) := by
      rw [h f]; simp
    have hd : ∀ k, inDeg (mapSet indeg f (inDeg indeg f - 1)) k = ((fs ++ R).count k : Nat) := by
      intro k
      rw [inDeg_mapSet]
      split
      · rename_i hk; rw [hk, hv]
      · rename_i hk
        rw [h k, List.cons_append, List.count_cons]
        simp [beq_false_of_ne (fun h => hk h.symm : f ≠ k)]
    obtain ⟨h1, new, h2, h3, h4⟩ := ih _ (if inDeg indeg f - 1 == 0 then queue ++ [f] else queue) hd
    refine ⟨h1, ?_⟩
    by_cases hz : inDeg indeg f - 1 = 0
    · have hnot : f ∉ fs ∧ f ∉ R := by
        rw [hv] at hz
        have hz : (fs ++ R).count f = 0 := by exact_mod_cast hz
        rw [List.count_eq_zero] at hz
        simpa using hz
      refine ⟨f :: new, ?_, ?_, ?_⟩
      · change (kahnEdges (mapSet indeg f (inDeg indeg f - 1)) (if inDeg indeg f - 1 == 0 then queue ++ [f] else queue) fs).2 = _
        rw [h2, hz]; simp
      · rw [List.nodup_cons]
        exact ⟨fun hm => hnot.1 ((h4 f).mp hm).1, h3⟩
      · intro k
        rw [List.mem_cons, h4, List.mem_cons]
        constructor
        · rintro (rfl | ⟨h, h'⟩)
          · exact ⟨Or.inl rfl, hnot.2⟩
          · exact ⟨Or.inr h, h'⟩
        · rintro ⟨rfl | h, h'⟩
          · exact Or.inl rfl
          · exact Or.inr ⟨h, h'⟩
    · have hin : f ∈ fs ∨ f ∈ R := by
        rw [hv] at hz
        have hz : ¬ (fs ++ R).count f = 0 := by exact_mod_cast hz
        rw [List.count_eq_zero, Classical.not_not] at hz
        exact List.mem_append.mp hz
      refine ⟨new, ?_, h3, ?_⟩
      · change (kahnEdges (mapSet indeg f (inDeg indeg f - 1)) (if inDeg indeg f - 1 == 0 then queue ++ [f] else queue) fs).2 = _
        rw [h2]; simp [hz]
      · intro k
        rw [h4, List.mem_cons]
        constructor
        · rintro ⟨h, h'⟩; exact ⟨Or.inr h, h'⟩
        · rintro ⟨rfl | h, h'⟩
          · exact ⟨hin.resolve_right h', h'⟩
          · exact ⟨h, h'⟩

/-- The edges out of files not yet processed. -/
def remEdges (G : List (Str × Str)) (done : List Str) : List (Str × Str) := G.filter (fun e => e.1 ∉ done)

/-- The invariant of the loop. -/
structure KahnInv (G : List (Str × Str)) (K : List Str) (indeg : List (Str × Int)) (queue done : List Str) : Prop where
  deg : ∀ k, inDeg indeg k = (((remEdges G done).map (·.2)).count k : Nat)
  nodup : (done ++ queue).Nodup
  zero : ∀ k, k ∈ done ++ queue ↔ k ∈ K ∧ k ∉ (remEdges G done).map (·.2)
  order : ∀ pre v post, done = pre ++ v :: post → ∀ u, (u, v) ∈ G → u ∈ pre

theorem KahnInv.step {G : List (Str × Str)} {K : List Str} {edges : List (Str × List Str)} {indeg : List (Str × Int)} {file : Str}
    {queue done : List Str} (hE : ∀ u, outEdges edges u = (G.filter (fun e => e.1 = u)).map (·.2)) (hG : ∀ e ∈ G, e.2 ∈ K)
    (h : KahnInv G K indeg (file :: queue) done) :
    KahnInv G K (kahnEdges indeg queue (outEdges edges file)).1 (kahnEdges indeg queue (outEdges edges file)).2 (done ++ [file]) := by
  have hfd : file ∉ done := by
    have := h.nodup
    rw [List.nodup_append] at this
    exact fun hm => this.2.2 file hm file (by simp) rfl
  have hEr : outEdges edges file = ((remEdges G done).filter (fun e => e.1 = file)).map (·.2) := by
    rw [hE, remEdges, List.filter_filter]
    congr 1
    apply List.filter_congr
    intro e _
    by_cases he : e.1 = file
    · simp [he, hfd]
    · simp [he]
  have hrem : remEdges G (done ++ [file]) = (remEdges G done).filter (fun e => !decide (e.1 = file)) := by
    unfold remEdges
    rw [List.filter_filter]
    apply List.filter_congr
    intro e _
    by_cases he : e.1 = file
    · simp [he]
    · simp [he]
  have hperm : ((remEdges G done).map (·.2)).Perm (outEdges edges file ++ (remEdges G (done ++ [file])).map (·.2)) := by
    rw [hEr, hrem, ← List.map_append]
    exact (List.filter_append_perm _ _).symm.map _
  have hdeg : ∀ k, inDeg indeg k = ((outEdges edges file ++ (remEdges G (done ++ [file])).map (·.2)).count k : Nat) := by
    intro k
    rw [h.deg k, hperm.count_eq]
  obtain ⟨h1, new, h2, h3, h4⟩ := kahnEdges_spec _ _ indeg queue hdeg
  have hz : ∀ k, k ∈ done ++ file :: queue ↔ k ∈ K ∧ k ∉ outEdges edges file ∧ k ∉ (remEdges G (done ++ [file])).map (·.2) := by
    intro k
    rw [h.zero k, hperm.mem_iff, List.mem_append, not_or]
  refine ⟨h1, ?_, ?_, ?_⟩
  · rw [h2]
    have hn := h.nodup
    rw [show done ++ [file] ++ (queue ++ new) = (done ++ file :: queue) ++ new by simp]
    rw [List.nodup_append]
    refine ⟨hn, h3, ?_⟩
    rintro a ha b hb rfl
    exact ((hz a).mp ha).2.1 ((h4 a).mp hb).1
  · intro k
    rw [h2, show done ++ [file] ++ (queue ++ new) = (done ++ file :: queue) ++ new by simp, List.mem_append, hz, h4]
    constructor
    · rintro (⟨h, -, h'⟩ | ⟨h, h'⟩)
      · exact ⟨h, h'⟩
      · refine ⟨?_, h'⟩
        rw [hE] at h
        obtain ⟨e, he, rfl⟩ := List.mem_map.mp h
        exact hG e (List.mem_of_mem_filter he)
    · rintro ⟨h, h'⟩
      by_cases hk : k ∈ outEdges edges file
      · exact Or.inr ⟨hk, h'⟩
      · exact Or.inl ⟨h, hk, h'⟩
  · intro pre v post hp u hu
    rcases List.eq_nil_or_concat post with rfl | ⟨post', x, rfl⟩
    · obtain ⟨rfl, hv⟩ := List.append_inj' hp rfl
      obtain rfl : file = v := by simpa using hv
      by_contra hud
      have hzf := ((h.zero file).mp (by simp)).2
      exact hzf (List.mem_map.mpr ⟨(u, file), List.mem_filter.mpr ⟨hu, by simpa using hud⟩, rfl⟩)
    · have hp' : done ++ [file] = (pre ++ v :: post') ++ [x] := by rw [hp]; simp
      obtain ⟨hd, -⟩ := List.append_inj' hp' rfl
      exact h.order pre v post' hd u hu

theorem kahnLoop_end {G : List (Str × Str)} {K : List Str} {edges : List (Str × List Str)}
    (hE : ∀ u, outEdges edges u = (G.filter (fun e => e.1 = u)).map (·.2)) (hG : ∀ e ∈ G, e.2 ∈ K) :
    ∀ (fuel : Nat) (indeg : List (Str × Int)) (queue done : List Str), KahnInv G K indeg queue done → K.length < fuel + done.length →
    ∃ indeg' done', kahnLoop edges fuel indeg queue done.length = done'.length ∧ KahnInv G K indeg' [] done' := by
  intro fuel
  induction fuel with
  | zero =>
    intro indeg queue done h hf
    exfalso
    have hs : (done ++ queue).length ≤ K.length :=
      (List.subperm_of_subset h.nodup (fun k hk => ((h.zero k).mp hk).1)).length_le
    simp only [List.length_append] at hs; omega
  | succ fuel ih =>
    intro indeg queue done h hf
    cases queue with
    | nil => exact ⟨indeg, done, rfl, h⟩
    | cons file queue =>
      have := ih _ _ _ (h.step hE hG) (by simp; omega)
      unfold kahnLoop
      rw [List.length_append, List.length_singleton] at this
      exact this

/-- In a finite set in which everything has a predecessor there is a cycle. -/
theorem exists_cycle {r : Str → Str → Prop} (S : List Str) (hS : S ≠ []) (h : ∀ v ∈ S, ∃ u ∈ S, r u v) : ∃ a, Relation.TransGen r a a := by
  by_contra hno
  let α := { x // x ∈ S }
  let rr : α → α → Prop := fun a b => Relation.TransGen r a.1 b.1
  haveI : Finite α := @Finite.of_fintype _ (List.Subtype.fintype S)
  haveI : IsTrans α rr := ⟨fun a b c h1 h2 => h1.trans h2⟩
  haveI : Std.Irrefl rr := ⟨fun a h => hno ⟨a.1, h⟩⟩
  have wf : WellFounded rr := Finite.wellFounded_of_trans_of_irrefl rr
  obtain ⟨x, hx⟩ := List.exists_mem_of_ne_nil S hS
  obtain ⟨m, -, hm⟩ := wf.has_min (Set.univ : Set α) ⟨⟨x, hx⟩, trivial⟩
  obtain ⟨u, hu, hr⟩ := h m.1 m.2
  exact hm ⟨u, hu⟩ trivial (.single hr)

/-- Kahn's algorithm: when all files are dequeued they can be numbered along the edges; otherwise there is a cycle. -/
theorem kahn_correct {G : List (Str × Str)} {K : List Str} {edges : List (Str × List Str)} {indeg : List (Str × Int)} {queue : List Str}
    (hK : K.Nodup) (hE : ∀ u, outEdges edges u = (G.filter (fun e => e.1 = u)).map (·.2)) (hG : ∀ e ∈ G, e.1 ∈ K ∧ e.2 ∈ K)
    (hd : ∀ k, inDeg indeg k = ((G.map (·.2)).count k : Nat)) (hq : queue.Nodup) (hqm : ∀ k, k ∈ queue ↔ k ∈ K ∧ inDeg indeg k = 0) :
    (kahnLoop edges (K.length + 1) indeg queue 0 = K.length →
      ∃ order : Str → Nat, (∀ u v, (u, v) ∈ G → order u < order v) ∧ ∀ u ∈ K, order u < K.length) ∧
    (kahnLoop edges (K.length + 1) indeg queue 0 ≠ K.length → ∃ a, Relation.TransGen (fun u v => (u, v) ∈ G) a a) := by
  have hrem : remEdges G [] = G := by simp [remEdges]
  have h0 : KahnInv G K indeg queue [] := by
    refine ⟨by rw [hrem]; exact hd, by simpa using hq, ?_, fun pre v post h => by simp at h⟩
    intro k
    rw [List.nil_append, hqm, hrem, hd k]
    rw [show (((G.map (·.2)).count k : Nat) : Int) = 0 ↔ (G.map (·.2)).count k = 0 by omega, List.count_eq_zero]
  obtain ⟨indeg', done, hl, hi⟩ := kahnLoop_end hE (fun e he => (hG e he).2) (K.length + 1) indeg queue [] h0 (by simp)
  rw [List.length_nil] at hl
  rw [hl]
  have hnd : done.Nodup := by simpa using hi.nodup
  have hz : ∀ k, k ∈ done ↔ k ∈ K ∧ k ∉ (remEdges G done).map (·.2) := by simpa using hi.zero
  have hsub : done ⊆ K := fun k hk => ((hz k).mp hk).1
  constructor
  · intro hlen
    have hall : ∀ k ∈ K, k ∈ done := by
      have hp : done.Perm K := (List.subperm_of_subset hnd hsub).perm_of_length_le (by omega)
      exact fun k hk => hp.mem_iff.mpr hk
    refine ⟨fun u => done.idxOf u, fun u v he => ?_, fun u hu => ?_⟩
    · have hv := hall v (hG _ he).2
      obtain ⟨pre, post, hp⟩ := List.append_of_mem hv
      have hu := hi.order pre v post hp u he
      have hvp : v ∉ pre := by
        intro hm
        rw [hp, List.nodup_append] at hnd
        exact hnd.2.2 v hm v (by simp) rfl
      have h1 : done.idxOf v = pre.length := by
        rw [hp, List.idxOf_append_of_notMem hvp]; simp
      have h2 : done.idxOf u < pre.length := by
        rw [hp, List.idxOf_append_of_mem hu]
        exact List.idxOf_lt_length_of_mem hu
      show done.idxOf u < done.idxOf v
      omega
    · rw [← hlen]; exact List.idxOf_lt_length_of_mem (hall u hu)
  · intro hlen
    apply exists_cycle (K.filter (fun k => k ∉ done))
    · intro hnil
      apply hlen
      have hK' : K ⊆ done := by
        intro k hk
        by_contra hkd
        have : k ∈ K.filter (fun k => k ∉ done) := List.mem_filter.mpr ⟨hk, by simpa using hkd⟩
        rw [hnil] at this; cases this
      have h1 := (List.subperm_of_subset hnd hsub).length_le
      have h2 := (List.subperm_of_subset hK hK').length_le
      omega
    · intro v hv
      obtain ⟨hvK, hvd⟩ := List.mem_filter.mp hv
      have hvd : v ∉ done := by simpa using hvd
      have : v ∈ (remEdges G done).map (·.2) := by
        by_contra hn
        exact hvd ((hz v).mpr ⟨hvK, hn⟩)
      obtain ⟨e, he, rfl⟩ := List.mem_map.mp this
      obtain ⟨heG, hed⟩ := List.mem_filter.mp he
      exact ⟨e.1, List.mem_filter.mpr ⟨(hG e heG).1, hed⟩, heG⟩

/-- A numbering along the edges excludes cycles. -/
theorem no_cycle {r : Str → Str → Prop} {order : Str → Nat} (h : ∀ u v, r u v → order u < order v) : ¬ ∃ a, Relation.TransGen r a a := by
  rintro ⟨a, ha⟩
  have : ∀ u v, Relation.TransGen r u v → order u < order v := by
    intro u v huv
    induction huv with
    | single h1 => exact h _ _ h1
    | tail _ h1 ih => exact Nat.lt_trans ih (h _ _ h1)
  exact Nat.lt_irrefl _ (this a a ha)

end Verif
