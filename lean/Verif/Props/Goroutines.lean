import Verif.Proofs.Goroutines
import Verif.Props.Include
/-!
# C64, C65: the goroutines of `Combined`
-/
namespace Verif
open Spec

/-- Seeing the channel closed is one more step. -/
def Fin.extra : Fin → Nat
  | .closed => 1
  | _ => 0

/-- What `combineConfigs` will get from a state. -/
def outS (cs : List Config) (n : Nat) (s : CombSt) : Out :=
  match s.main with
  | .reading acc =>
    let o := outC cs n s.chain
    { items := if o.fin = .closed then acc ++ o.items else [], fin := o.fin, cost := o.cost + o.fin.extra }
  | .returned (.ok ds) => { items := ds, fin := .closed, cost := 0 }
  | .returned (.error e) => { items := [], fin := .err e, cost := 0 }
  | .crashed => { items := [], fin := .panic, cost := 0 }

/-- The reading of a chain, as a function of what it sends. -/
def readOut (acc : List Directive) (o : Out) : Out :=
  { items := if o.fin = .closed then acc ++ o.items else [], fin := o.fin, cost := o.cost + o.fin.extra }

theorem readOut_le {acc : List Directive} {a b : Out} (h : a.le b) : (readOut acc a).le (readOut acc b) := by
  rcases h with h | rfl
  · exact Or.inl h
  · exact Or.inr rfl

theorem readOut_moves {acc : List Directive} {a b : Out} (h : a.Moves b) : (readOut acc a).Moves (readOut acc b) := by
  rcases h with h | ⟨rfl, h⟩
  · exact Or.inl ⟨by simp [readOut, h.items, h.fin], h.fin, by simp [readOut, h.cost, h.fin]; omega⟩
  · exact Or.inr ⟨rfl, h⟩

theorem readOut_next {acc : List Directive} {a b : Out} (h : a.Next b) : (readOut acc a).Next (readOut acc b) :=
  ⟨by simp [readOut, h.items, h.fin], h.fin, by simp [readOut, h.cost, h.fin]; omega⟩

theorem outS_le (cs : List Config) (n : Nat) (s : CombSt) : (outS cs n s).le (outS cs (n + 1) s) := by
  unfold outS
  split
  · exact readOut_le (outC_le cs n _)
  all_goals exact Or.inr rfl

theorem outS_le_add (cs : List Config) (n k : Nat) (s : CombSt) : (outS cs n s).le (outS cs (n + k) s) := by
  induction k with
  | zero => exact Out.le_refl _
  | succ k ih => exact Out.le_trans ih (outS_le cs (n + k) s)

theorem Out.le.eq {a b : Out} (h : a.le b) (hf : a.fin ≠ .fuel) : a = b := by
  rcases h with h | h
  · exact absurd h hf
  · exact h

/-- A step of a goroutine that is left behind. -/
def IsOrphanStep (s s' : CombSt) : Prop := s.main = s'.main ∧ s.chain = s'.chain ∧ s.orphans ≠ []

/-- A step that does not crash does not change what `combineConfigs` gets. -/
theorem CombStep.out {cs : List Config} {s s' : CombSt} (h : CombStep cs s s') (hc : s'.main ≠ .crashed) (n : Nat) :
    IsOrphanStep s s' ∨ ∃ a, (outS cs n s).le a ∧ a.le (outS cs (n + 1) s) ∧ a.Moves (outS cs n s') := by
  cases h with
  | recv acc f x k rest os =>
    refine Or.inr ⟨_, Out.le_refl _, outS_le cs n _, Or.inl ⟨?_, rfl, by simp only [outS, outC, outG]; omega⟩⟩
    simp only [outS, outC, outG, List.append_assoc, List.singleton_append]
    rfl
  | recvErr acc f e k rest os => exact Or.inr ⟨_, Out.le_refl _, outS_le cs n _, Or.inl ⟨rfl, rfl, rfl⟩⟩
  | closed acc f os =>
    refine Or.inr ⟨_, Out.le_refl _, outS_le cs n _, Or.inl ⟨?_, rfl, rfl⟩⟩
    simp [outS, outC, outG]
  | act acc ch ch' o os h =>
    obtain ⟨a, h1, h2, h3⟩ := h.out n
    exact Or.inr ⟨readOut acc a, readOut_le h1, readOut_le h2, readOut_moves h3⟩
  | orphan m chain os1 ch ch' o os2 hm h => exact Or.inl ⟨rfl, rfl, by simp⟩
  | crash m chain os hm h => exact absurd rfl hc


/-- Nothing happens after a crash. -/
theorem CombStep.not_crashed {cs : List Config} {s s' : CombSt} (h : CombStep cs s s') : s.main ≠ .crashed := by
  cases h with
  | orphan m chain os1 ch ch' o os2 hm h => exact hm
  | crash m chain os hm h => exact hm
  | _ => simp

theorem CombRun.trans {cs : List Config} {n m : Nat} {a b c : CombSt} (h : CombRun cs n a b) (h' : CombRun cs m b c) : CombRun cs (n + m) a c := by
  induction h' with
  | refl => exact h
  | tail _ hs ih => exact .tail (ih h) hs

theorem CombRun.one {cs : List Config} {a b : CombSt} (h : CombStep cs a b) : CombRun cs 1 a b := .tail (.refl a) h

/-- Without a crash a run does not change what `combineConfigs` gets. -/
theorem CombRun.out_back {cs : List Config} {k : Nat} {s s' : CombSt} (h : CombRun cs k s s') : s'.main ≠ .crashed → ∀ n, (outS cs n s').fin ≠ .fuel →
    ∃ m, (outS cs m s).fin = (outS cs n s').fin ∧ (outS cs m s).items = (outS cs n s').items := by
  induction h with
  | refl => exact fun _ n _ => ⟨n, rfl, rfl⟩
  | @tail k a b c hr hs ih =>
    intro hc n hf
    rcases hs.out hc n with ⟨h1, h2, -⟩ | ⟨x, h1, h2, h3⟩
    · have : outS cs n b = outS cs n c := by unfold outS; rw [h1, h2]
      rw [← this] at hf ⊢
      exact ih hs.not_crashed n hf
    · have hx : x.fin ≠ .fuel := by rw [h3.fin]; exact hf
      have := h2.eq hx
      subst this
      obtain ⟨m, h4, h5⟩ := ih hs.not_crashed (n + 1) hx
      exact ⟨m, h4.trans h3.fin, h5.trans h3.items⟩

theorem CombRun.out_fwd {cs : List Config} {k : Nat} {s s' : CombSt} (h : CombRun cs k s s') (hc : s'.main ≠ .crashed) {n : Nat}
    (hf : (outS cs n s).fin ≠ .fuel) : (outS cs n s').fin = (outS cs n s).fin ∧ (outS cs n s').items = (outS cs n s).items ∧
      (outS cs n s').cost ≤ (outS cs n s).cost := by
  induction h with
  | refl => exact ⟨rfl, rfl, Nat.le_refl _⟩
  | @tail k a b c hr hs ih =>
    obtain ⟨i1, i2, i3⟩ := ih hs.not_crashed hf
    rcases hs.out hc n with ⟨h1, h2, -⟩ | ⟨x, h1, h2, h3⟩
    · have : outS cs n b = outS cs n c := by unfold outS; rw [h1, h2]
      rw [← this]; exact ⟨i1, i2, i3⟩
    · have := h1.eq (by rw [i1]; exact hf)
      subst this
      exact ⟨h3.fin.symm.trans i1, h3.items.symm.trans i2, Nat.le_trans h3.cost i3⟩

/-- The chain `combineConfigs` reads from is in order. -/
def StOk (s : CombSt) : Prop :=
  match s.main with
  | .reading _ => ChainOk s.chain
  | .returned _ => s.chain = []
  | .crashed => True

theorem CombStep.ok {cs : List Config} {s s' : CombSt} (h : CombStep cs s s') (hs : StOk s) : StOk s' := by
  cases h with
  | recv acc f x k rest os => exact ChainOk.step hs
  | recvErr acc f e k rest os => exact rfl
  | closed acc f os => exact rfl
  | act acc ch ch' o os h => exact h.ok hs
  | orphan m chain os1 ch ch' o os2 hm h => exact hs
  | crash m chain os hm h => exact trivial

theorem CombRun.ok {cs : List Config} {k : Nat} {s s' : CombSt} (h : CombRun cs k s s') (hs : StOk s) : StOk s' := by
  induction h with
  | refl => exact hs
  | tail _ h ih => exact h.ok (ih hs)

theorem init_ok (c0 : Config) : StOk (.init c0) := ChainOk.last _ rfl

theorem outS_init (cs : List Config) (n : Nat) (c0 : Config) : (outS cs n (.init c0)).res = performIncludes cs (n + 1) c0.file c0.parsed := by
  rw [← outInc_res]
  show (readOut [] (outC cs n [⟨c0.file, .next c0.parsed⟩])).res = (outC cs n [⟨c0.file, .next c0.parsed⟩]).res
  generalize outC cs n [⟨c0.file, .next c0.parsed⟩] = o
  obtain ⟨i, f, c⟩ := o
  cases f <;> simp [readOut, Out.res]

theorem combined_eq {p : Payload} {c0 : Config} {rest : List Config} (h : p.config = c0 :: rest) (n : Nat) :
    combined n p = (performIncludes p.config n c0.file c0.parsed).bind fun ds => .ok (combinedPayload p c0 ds) := by
  unfold combined
  split
  · rename_i h'; rw [h] at h'; cases h'
  · rename_i c0' rest' h'
    rw [h] at h'
    obtain ⟨rfl, rfl⟩ := List.cons.inj h'
    rfl

/-- A step that leads on. -/
theorem CombSt.progress {cs : List Config} {s : CombSt} (hs : StOk s) {acc : List Directive} (hm : s.main = .reading acc) (n : Nat) :
    (∃ s', CombStep cs s s' ∧ s'.main ≠ .crashed ∧ ((outS cs n s).fin ≠ .fuel → (outS cs n s).Next (outS cs n s'))) ∨
    (∃ s', CombStep cs s s' ∧ s'.main = .crashed ∧ ((outS cs n s).fin ≠ .fuel → (outS cs n s).fin = .panic)) := by
  obtain ⟨main, chain, orphans⟩ := s
  simp only at hm
  subst hm
  rcases ChainOk.progress (cs := cs) (show ChainOk chain from hs) n with ⟨ch', o, h1, h2⟩ | ⟨h1, h2⟩ | ⟨f, x, k, rest, rfl⟩ | ⟨f, rfl⟩
  · exact Or.inl ⟨_, .act acc chain ch' o orphans h1, by simp, fun hf => readOut_next (h2 hf)⟩
  · exact Or.inr ⟨_, .crash _ _ _ (by simp) (Or.inl h1), rfl, h2⟩
  · cases x with
    | dir x =>
      refine Or.inl ⟨_, .recv acc f x k rest orphans, by simp, fun _ => ⟨?_, rfl, by simp only [outS, outC, outG]; omega⟩⟩
      simp only [outS, outC, outG, List.append_assoc, List.singleton_append]
      rfl
    | err e => exact Or.inl ⟨_, .recvErr acc f e k rest orphans, by simp, fun _ => ⟨rfl, rfl, rfl⟩⟩
  · exact Or.inl ⟨_, .closed acc f orphans, by simp, fun _ => ⟨by simp [outS, outC, outG], rfl, rfl⟩⟩

/-! ## C64 -/

/-- The result of `Combined` when `combineConfigs` returns `r`. -/
def resultOf (p : Payload) (c0 : Config) : Except GoErr (List Directive) → Res Payload
  | .ok ds => .ok (combinedPayload p c0 ds)
  | .error e => .err e

/-- **C64**.  Whatever the scheduler does: if `Combined` returns, its result is that of the sequential model. -/
theorem C64_returns {p : Payload} {c0 : Config} {rest : List Config} (h : p.config = c0 :: rest) {k : Nat} {s : CombSt}
    (hr : CombRun p.config k (.init c0) s) {r : Except GoErr (List Directive)} (hs : s.main = .returned r) :
    ∃ fuel, combined fuel p = resultOf p c0 r := by
  have hf : (outS p.config 0 s).fin ≠ .fuel := by
    unfold outS; rw [hs]
    cases r <;> simp
  obtain ⟨m, h1, h2⟩ := hr.out_back (by rw [hs]; simp) 0 hf
  refine ⟨m + 1, ?_⟩
  have h3 : (outS p.config m (.init c0)).res = (outS p.config 0 s).res := by rw [Out.res, Out.res, h1, h2]
  rw [combined_eq h, ← outS_init, h3]
  unfold outS
  rw [hs]
  cases r <;> rfl

/-- **C64**.  As long as `Combined` has not returned, some goroutine can go on (or panics). -/
theorem C64_no_deadlock {cs : List Config} {c0 : Config} {k : Nat} {s : CombSt} (hr : CombRun cs k (.init c0) s) {acc : List Directive}
    (hs : s.main = .reading acc) : ∃ s', CombStep cs s s' := by
  rcases CombSt.progress (hr.ok (init_ok c0)) hs 0 with ⟨s', h, -⟩ | ⟨s', h, -⟩ <;> exact ⟨s', h⟩


theorem StOk.step_closed {cs : List Config} {s s' : CombSt} (h : CombStep cs s s') (hs : StOk s) {n : Nat} (hf : (outS cs n s).fin = .closed)
    (ho : s.orphans = []) : s'.main ≠ .crashed ∧ s'.orphans = [] := by
  cases h with
  | recv acc f x k rest os => exact ⟨by simp, ho⟩
  | recvErr acc f e k rest os => cases hf
  | closed acc f os => exact ⟨by simp, ho⟩
  | act acc ch ch' o os h => exact ⟨by simp, by simp only at ho ⊢; rw [ho, h.no_orphan hf]; rfl⟩
  | orphan m chain os1 ch ch' o os2 hm h => simp at ho
  | crash m chain os hm h =>
    simp only at ho
    subst ho
    rcases h with h | ⟨ch, h, -⟩
    · cases m with
      | reading acc => exact absurd hf h.not_closed
      | returned r =>
        have : chain = [] := hs
        subst this
        cases h
      | crashed => exact absurd rfl hm
    · cases h

theorem ok_run {cs : List Config} {c0 : Config} {n : Nat} (h0 : (outS cs n (.init c0)).fin = .closed) {k : Nat} {s : CombSt}
    (hr : CombRun cs k (.init c0) s) : s.main ≠ .crashed ∧ s.orphans = [] ∧ (outS cs n s).fin = .closed ∧
      (outS cs n s).items = (outS cs n (.init c0)).items ∧ (outS cs n s).cost + k = (outS cs n (.init c0)).cost := by
  generalize hi : CombSt.init c0 = i at hr h0 ⊢
  induction hr with
  | refl => subst hi; exact ⟨by simp [CombSt.init], rfl, h0, rfl, rfl⟩
  | @tail k a b c hr hs ih =>
    subst hi
    obtain ⟨i1, i2, i3, i4, i5⟩ := ih rfl h0
    obtain ⟨h1, h2⟩ := StOk.step_closed hs (hr.ok (init_ok c0)) i3 i2
    rcases hs.out h1 n with ⟨-, -, h⟩ | ⟨x, h3, -, h4⟩
    · exact absurd i2 h
    · have := h3.eq (by rw [i3]; simp)
      subst this
      have := h4.one i3
      exact ⟨h1, h2, h4.fin.symm.trans i3, h4.items.symm.trans i4, by omega⟩

theorem combined_fin {p : Payload} {c0 : Config} {rest : List Config} (h : p.config = c0 :: rest) {n : Nat} :
    (∀ q, combined (n + 1) p = .ok q → (outS p.config n (.init c0)).fin = .closed ∧ q = combinedPayload p c0 (outS p.config n (.init c0)).items) ∧
    (∀ e, combined (n + 1) p = .err e → (outS p.config n (.init c0)).fin = .err e) ∧
    (combined (n + 1) p = .panic → (outS p.config n (.init c0)).fin = .panic) ∧
    (combined (n + 1) p = .fuel → (outS p.config n (.init c0)).fin = .fuel) := by
  rw [combined_eq h, ← outS_init]
  generalize outS p.config n (.init c0) = o
  obtain ⟨i, f, c⟩ := o
  cases f <;> simp [Out.res, Res.bind] <;> intros <;> simp_all

theorem combined_succ {p : Payload} {c0 : Config} {rest : List Config} (h : p.config = c0 :: rest) {fuel : Nat} (hf : combined fuel p ≠ .fuel) :
    ∃ n, fuel = n + 1 := by
  cases fuel with
  | zero => rw [combined_eq h] at hf; exact absurd rfl hf
  | succ n => exact ⟨n, rfl⟩

/-- **C64**.  If the sequential result is a payload, every schedule ends after the same number of steps, never crashes, leaves no goroutine behind and returns
that payload. -/
theorem C64_ok {p q : Payload} {c0 : Config} {rest : List Config} (h : p.config = c0 :: rest) {fuel : Nat} (hq : combined fuel p = .ok q) :
    ∃ K, ∀ {k : Nat} {s : CombSt}, CombRun p.config k (.init c0) s → s.main ≠ .crashed ∧ s.orphans = [] ∧ k ≤ K ∧
      (k < K → ∃ s', CombStep p.config s s') ∧
      (k = K → s.chain = [] ∧ ∃ ds, s.main = .returned (.ok ds) ∧ q = combinedPayload p c0 ds) := by
  obtain ⟨n, rfl⟩ := combined_succ h (by rw [hq]; simp)
  obtain ⟨hf, hq⟩ := (combined_fin h).1 q hq
  refine ⟨(outS p.config n (.init c0)).cost, fun {k s} hr => ?_⟩
  obtain ⟨i1, i2, i3, i4, i5⟩ := ok_run hf hr
  have hok := hr.ok (init_ok c0)
  refine ⟨i1, i2, by omega, fun hk => ?_, fun hk => ?_⟩
  · cases hm : s.main with
    | reading acc => exact C64_no_deadlock hr hm
    | returned r =>
      have : (outS p.config n s).cost = 0 := by unfold outS; rw [hm]; cases r <;> rfl
      omega
    | crashed => exact absurd hm i1
  · cases hm : s.main with
    | reading acc =>
      rcases CombSt.progress hok hm n with ⟨s', -, -, h⟩ | ⟨s', -, -, h⟩
      · have := (h (by rw [i3]; simp)).cost
        omega
      · have := h (by rw [i3]; simp)
        rw [i3] at this; cases this
    | returned r =>
      have hc : s.chain = [] := by unfold StOk at hok; rw [hm] at hok; exact hok
      rw [← i4] at hq
      unfold outS at i3 hq
      rw [hm] at i3 hq
      cases r with
      | ok ds => exact ⟨hc, ds, rfl, hq⟩
      | error e => cases i3
    | crashed => exact absurd hm i1

theorem CombSt.reaches {cs : List Config} {n : Nat} : ∀ (c : Nat) {s : CombSt}, StOk s → s.main ≠ .crashed → (outS cs n s).fin ≠ .fuel →
    (outS cs n s).cost = c → ∃ k s', CombRun cs k s s' ∧ (outS cs n s').fin = (outS cs n s).fin ∧ ∀ acc, s'.main ≠ .reading acc := by
  intro c
  induction c with
  | zero =>
    intro s hs hc hf hk
    cases hm : s.main with
    | reading acc =>
      rcases CombSt.progress hs hm n with ⟨s', -, -, h⟩ | ⟨s', h1, h2, h⟩
      · have := (h hf).cost; omega
      · refine ⟨1, s', .one h1, ?_, by rw [h2]; simp⟩
        rw [h hf]; unfold outS; rw [h2]
    | returned r => exact ⟨0, s, .refl s, rfl, by rw [hm]; simp⟩
    | crashed => exact absurd hm hc
  | succ c ih =>
    intro s hs hc hf hk
    cases hm : s.main with
    | reading acc =>
      rcases CombSt.progress hs hm n with ⟨s', h1, h2, h⟩ | ⟨s', h1, h2, h⟩
      · have hn := h hf
        obtain ⟨k, s'', h3, h4, h5⟩ := ih (h1.ok hs) h2 (by rw [← hn.fin]; exact hf) (by have := hn.cost; omega)
        exact ⟨1 + k, s'', (CombRun.one h1).trans h3, h4.trans hn.fin.symm, h5⟩
      · refine ⟨1, s', .one h1, ?_, by rw [h2]; simp⟩
        rw [h hf]; unfold outS; rw [h2]
    | returned r => exact ⟨0, s, .refl s, rfl, by rw [hm]; simp⟩
    | crashed => exact absurd hm hc

/-- **C64**.  If the sequential result is an error, `Combined` can return that error at any time, unless the program has crashed. -/
theorem C64_error {p : Payload} {c0 : Config} {rest : List Config} (h : p.config = c0 :: rest) {fuel : Nat} {e : GoErr}
    (he : combined fuel p = .err e) {k : Nat} {s : CombSt} (hr : CombRun p.config k (.init c0) s) (hc : s.main ≠ .crashed) :
    ∃ k' s', CombRun p.config k' s s' ∧ s'.main = .returned (.error e) := by
  obtain ⟨n, rfl⟩ := combined_succ h (by rw [he]; simp)
  have hf := (combined_fin h).2.1 e he
  have h1 := (hr.out_fwd hc (n := n) (by rw [hf]; simp)).1.trans hf
  obtain ⟨k', s', h2, h3, h4⟩ := CombSt.reaches (cs := p.config) (n := n) _ (hr.ok (init_ok c0)) hc (by rw [h1]; simp) rfl
  refine ⟨k', s', h2, ?_⟩
  rw [h1] at h3
  unfold outS at h3
  cases hm : s'.main with
  | reading acc => exact absurd hm (h4 acc)
  | returned r => rw [hm] at h3; cases r <;> cases h3; rfl
  | crashed => rw [hm] at h3; cases h3

/-- **C64**.  If the sequential model panics, `Combined` never returns, and the program can crash at any time. -/
theorem C64_panic {p : Payload} {c0 : Config} {rest : List Config} (h : p.config = c0 :: rest) {fuel : Nat}
    (he : combined fuel p = .panic) {k : Nat} {s : CombSt} (hr : CombRun p.config k (.init c0) s) :
    (∀ r, s.main ≠ .returned r) ∧ ∃ k' s', CombRun p.config k' s s' ∧ s'.main = .crashed := by
  by_cases hc : s.main = .crashed
  · exact ⟨by rw [hc]; simp, 0, s, .refl s, hc⟩
  obtain ⟨n, rfl⟩ := combined_succ h (by rw [he]; simp)
  have hf := (combined_fin h).2.2.1 he
  have h1 := (hr.out_fwd hc (n := n) (by rw [hf]; simp)).1.trans hf
  have key : ∀ {s : CombSt}, (outS p.config n s).fin = .panic → ∀ r, s.main ≠ .returned r := by
    intro s h r hm
    unfold outS at h; rw [hm] at h; cases r <;> cases h
  refine ⟨key h1, ?_⟩
  obtain ⟨k', s', h2, h3, h4⟩ := CombSt.reaches (cs := p.config) (n := n) _ (hr.ok (init_ok c0)) hc (by rw [h1]; simp) rfl
  refine ⟨k', s', h2, ?_⟩
  cases hm : s'.main with
  | reading acc => exact absurd hm (h4 acc)
  | returned r => exact absurd hm (key (h3.trans h1) r)
  | crashed => rfl

theorem outG_stops {cs : List Config} {n : Nat} {f : Str} {a : Out} (h1 : a.fin ≠ .closed) (h2 : a.fin ≠ .fuel) : ∀ {st : GoSt}, st.reads = true →
    (outG cs n f a st).fin ≠ .fuel
  | .block .., _ => by cases h : a.fin <;> simp_all [outG, Out.collect, Out.andThen]
  | .copy .., _ => by cases h : a.fin <;> simp_all [outG, Out.fwd, Out.andThen]
  | .send (.dir x) k, hr => outG_stops h1 h2 (st := k) hr
  | .send (.err e) k, _ => by simp [outG]

theorem Act.orphan_fin {cs : List Config} {ch ch' : List Gor} {o : List (List Gor)} (h : Act cs ch ch' o) {n : Nat} :
    (outC cs n ch).fin = .fuel → o = [] := by
  intro hf
  by_contra ho
  revert hf
  induction h with
  | head h =>
    cases h with
    | recvErr f d acc ds f' e k rest => intro h; simp only [outC, outG, Out.collect, Out.andThen] at h; cases h
    | _ => exact absurd rfl ho
  | deeper g rest rest' o hg h ih => exact outG_stops (fun hc => ho (h.no_orphan hc)) (ih ho) hg

theorem Crashes.not_fuel {cs : List Config} {ch : List Gor} (h : Crashes ch) {n : Nat} : (outC cs n ch).fin ≠ .fuel := by
  induction h with
  | here f d idx idxs ds hi =>
    simp only [outC, outG, outIncl]
    rw [if_neg (by omega), if_pos hi]
    simp [Out.andThen]
  | deeper g rest hg h ih => exact outG_stops h.not_closed ih hg

/-- **C64**.  If the sequential model never ends (configs that include each other in a circle), no schedule ends: `Combined` does not return, nothing crashes, no goroutine
is left behind, and there is always a next step. -/
theorem C64_cycle {p : Payload} {c0 : Config} {rest : List Config} (h : p.config = c0 :: rest) (he : ∀ fuel, combined fuel p = .fuel) {k : Nat} {s : CombSt}
    (hr : CombRun p.config k (.init c0) s) : (∃ acc, s.main = .reading acc) ∧ s.orphans = [] ∧ ∃ s', CombStep p.config s s' := by
  have h0 : ∀ n, (outS p.config n (.init c0)).fin = .fuel := fun n => (combined_fin h).2.2.2 (he (n + 1))
  have key : ∀ {k : Nat} {s : CombSt}, CombRun p.config k (.init c0) s → s.main ≠ .crashed → ∀ n, (outS p.config n s).fin = .fuel := by
    intro k s hr hc n
    by_contra hf
    obtain ⟨m, h1, -⟩ := hr.out_back hc n hf
    rw [h0] at h1
    exact hf h1.symm
  suffices hs : (∃ acc, s.main = .reading acc) ∧ s.orphans = [] from ⟨hs.1, hs.2, C64_no_deadlock hr hs.1.choose_spec⟩
  generalize hi : CombSt.init c0 = i at hr
  induction hr with
  | refl => subst hi; exact ⟨⟨[], rfl⟩, rfl⟩
  | @tail k a b c hr hs ih =>
    subst hi
    obtain ⟨⟨acc, i1⟩, i2⟩ := ih rfl
    have hf := key hr (by rw [i1]; simp) 0
    cases hs with
    | recv acc f x k rest os => exact ⟨⟨_, rfl⟩, i2⟩
    | recvErr acc f e k rest os => cases hf
    | closed acc f os => cases hf
    | act acc ch ch' o os h => exact ⟨⟨_, rfl⟩, by simp only at i2 ⊢; rw [i2, h.orphan_fin hf]; rfl⟩
    | orphan m chain os1 ch ch' o os2 hm h => simp at i2
    | crash m chain os hm h =>
      simp only at i1 i2
      subst i1 i2
      rcases h with h | ⟨ch, h, -⟩
      · exact absurd hf h.not_fuel
      · cases h


/-! ## C64: examples -/

/-- An include directive. -/
def exInc (idxs : List Int) : Directive := { directive := c!"include", line := 1, args := [c!"f"], includes := some idxs }
/-- Another directive. -/
def exPlain : Directive := { directive := c!"gzip", line := 2, args := [c!"on"] }
/-- A block. -/
def exHttp (b : List Directive) : Directive := { directive := c!"http", line := 1, args := [], block := some b }

/-- A payload with these configs. -/
def exPay (l : List (List Directive)) : Payload := { status := c!"ok", errors := [], config := l.map fun ds => { file := c!"f", parsed := ds } }

/-- Every schedule for an include in a block gives the expanded block. -/
example : ∃ K, ∀ {k : Nat} {s : CombSt}, CombRun (exPay [[exHttp [exInc [1]]], [exPlain]]).config k (.init { file := c!"f", parsed := [exHttp [exInc [1]]] }) s →
    k = K → s.main = .returned (.ok [exHttp [exPlain]]) := by
  obtain ⟨K, h⟩ := C64_ok (p := exPay [[exHttp [exInc [1]]], [exPlain]]) (q := _) rfl (fuel := 2) rfl
  refine ⟨K, fun hr hk => ?_⟩
  obtain ⟨-, -, -, -, h5⟩ := h hr
  obtain ⟨-, ds, h6, h7⟩ := h5 hk
  have := congrArg (fun q : Payload => q.config.map (·.parsed)) h7
  simp only [combinedPayload, List.map_cons, List.map_nil] at this
  injection this with this
  rw [h6, ← this]
  rfl

/-- The error for index 9 can always be returned. -/
example {k : Nat} {s : CombSt} (hr : CombRun (exPay [[exHttp [exInc [9]]]]).config k (.init { file := c!"f", parsed := [exHttp [exInc [9]]] }) s)
    (hc : s.main ≠ .crashed) : ∃ k' s', CombRun (exPay [[exHttp [exInc [9]]]]).config k' s s' ∧ s'.main = .returned (.error (indexError c!"f" (exInc [9]) 9)) :=
  C64_error (p := exPay [[exHttp [exInc [9]]]]) rfl (fuel := 1) rfl hr hc

/-- A negative index always crashes. -/
example {k : Nat} {s : CombSt} (hr : CombRun (exPay [[exPlain, exInc [-1]]]).config k (.init { file := c!"f", parsed := [exPlain, exInc [-1]] }) s) :
    (∀ r, s.main ≠ .returned r) ∧ ∃ k' s', CombRun (exPay [[exPlain, exInc [-1]]]).config k' s s' ∧ s'.main = .crashed :=
  C64_panic (p := exPay [[exPlain, exInc [-1]]]) rfl (fuel := 1) rfl hr

/-- A config that includes itself. -/
example {k : Nat} {s : CombSt} (hr : CombRun (exPay [[exInc [0]]]).config k (.init { file := c!"f", parsed := [exInc [0]] }) s) :
    ∃ s', CombStep (exPay [[exInc [0]]]).config s s' := by
  refine (C64_cycle (p := exPay [[exInc [0]]]) rfl (fun fuel => ?_) hr).2.2
  rw [combined_eq rfl]
  have : ∀ n, performIncludes (exPay [[exInc [0]]]).config n c!"f" [exInc [0]] = .fuel := by
    intro n
    induction n with
    | zero => rfl
    | succ n ih =>
      show Res.bind (Res.bind (performIncludes (exPay [[exInc [0]]]).config n c!"f" [exInc [0]]) _) _ = _
      rw [ih]; rfl
  rw [this]; rfl

/-! ## C65 -/

/-- **C65**, for what `Parse` combines: whatever the scheduler does, nothing crashes, no goroutine is left behind, and after a fixed number of steps all of
them have returned and the payload is returned. -/
theorem C65_parse {env : Env} (hperm : ∀ l, (env.mapOrder l).Perm l) {o : ParseOptions} {filename : Str} {cs : List Config} {ps' : PS}
    (h : FilesOk env o (env.dir filename) (initPS filename) cs ps') (ha : isAcyclic env ps' = false) :
    ∃ c0 rest K, cs = c0 :: rest ∧ ∀ {k : Nat} {s : CombSt}, CombRun cs k (.init c0) s → s.main ≠ .crashed ∧ s.orphans = [] ∧ k ≤ K ∧
      (k < K → ∃ s', CombStep cs s s') ∧ (k = K → s.chain = [] ∧ ∃ ds, s.main = .returned (.ok ds)) := by
  obtain ⟨q, hq⟩ := C39_combines hperm h ha
  obtain ⟨c0, rest, hcs, -⟩ := h.ne_nil _ _ rfl
  have hp : (rawPayload ps' cs).config = cs := rfl
  obtain ⟨K, hK⟩ := C64_ok (p := rawPayload ps' cs) (hp.trans hcs) hq
  refine ⟨c0, rest, K, hcs, fun hr => ?_⟩
  obtain ⟨h1, h2, h3, h4, h5⟩ := hK hr
  exact ⟨h1, h2, h3, h4, fun hk => ⟨(h5 hk).1, (h5 hk).2.imp fun _ h => h.1⟩⟩

/-- A goroutine that can never go on: `Combined` has returned, nothing can happen any more, and a goroutine has not returned. -/
def Leaks (cs : List Config) (s : CombSt) : Prop :=
  (∃ r, s.main = .returned r) ∧ (∀ s', ¬ CombStep cs s s') ∧ ∃ ch ∈ s.orphans, ∃ g ∈ ch, g.st ≠ .ret

/-- A goroutine that is sending to nobody. -/
theorem leaks_send {cs : List Config} {r : Except GoErr (List Directive)} {f : Str} {x : Item} {k : GoSt} (hk : k.reads = false) :
    Leaks cs ⟨.returned r, [], [[⟨f, .send x k⟩]]⟩ := by
  refine ⟨⟨r, rfl⟩, fun s' h => ?_, _, List.mem_singleton.mpr rfl, _, List.mem_singleton.mpr rfl, by simp⟩
  generalize hs : (⟨.returned r, [], [[⟨f, .send x k⟩]]⟩ : CombSt) = s at h
  cases h with
  | orphan m chain os1 ch ch' o os2 hm h =>
    injection hs with _ _ hs
    have : ch = [⟨f, .send x k⟩] := by
      cases os1 with
      | nil => simp at hs; exact hs.1.symm
      | cons a l => simp at hs
    subst this
    cases h with
    | head h => cases h
    | deeper g rest rest' o hg h => rw [show GoSt.reads (.send x k) = k.reads from rfl, hk] at hg; cases hg
  | crash m chain os hm h =>
    injection hs with _ h1 h2
    subst h1 h2
    rcases h with h | ⟨ch, h, h'⟩
    · cases h
    · simp at h
      subst h
      cases h' with
      | deeper g rest hg h => cases h
  | _ => simp at hs

/-- **C65** is false of a payload made by hand: config 0 is `include 1; gzip on;`, config 1 includes the missing config 9.  The goroutine of config 0 forwards the
error and goes on; nobody reads what it sends. -/
theorem C65_false_leak : ∃ (p : Payload) (c0 : Config) (rest : List Config) (k : Nat) (s : CombSt) (e : GoErr), p.config = c0 :: rest ∧ combined 2 p = .err e ∧
    CombRun p.config k (.init c0) s ∧ s.main = .returned (.error e) ∧ Leaks p.config s := by
  refine ⟨exPay [[exInc [1], exPlain], [exInc [9]]], _, _, 12, ⟨.returned (.error (indexError c!"f" (exInc [9]) 9)), [], [[⟨c!"f", .send (.dir exPlain) (.next [])⟩]]⟩,
    indexError c!"f" (exInc [9]) 9, rfl, rfl, ?_, rfl, leaks_send rfl⟩
  refine .tail ?_ (.orphan _ _ [] _ _ [] [] (by simp) (.head (.keep c!"f" exPlain [] rfl)))
  refine .tail ?_ (.orphan _ _ [] _ _ [] [] (by simp) (.head (.plain c!"f" exPlain [] rfl)))
  refine .tail ?_ (.orphan _ _ [] _ _ [] [] (by simp) (.head (.inclDone c!"f" (exInc [1]) [exPlain])))
  refine .tail ?_ (.orphan _ _ [] _ _ [] [] (by simp) (.head (.inclNext c!"f" (exInc [1]) [] [exPlain] c!"f")))
  refine .tail ?_ (.recvErr [] c!"f" (indexError c!"f" (exInc [9]) 9) (.copy (exInc [1]) [] [exPlain]) [⟨c!"f", .ret⟩] [])
  refine .tail ?_ (.act _ _ _ [] [] (.head (.forward c!"f" (exInc [1]) [] [exPlain] c!"f" (.err (indexError c!"f" (exInc [9]) 9)) .ret [])))
  refine .tail ?_ (.act _ _ _ [] [] (.deeper _ _ _ _ rfl (.head (.inclBad c!"f" (exInc [9]) 9 [] [] (by decide)))))
  refine .tail ?_ (.act _ _ _ [] [] (.deeper _ _ _ _ rfl (.head (.incl c!"f" (exInc [9]) [] rfl))))
  refine .tail ?_ (.act _ _ _ [] [] (.deeper _ _ _ _ rfl (.head (.plain c!"f" (exInc [9]) [] rfl))))
  refine .tail ?_ (.act _ _ _ [] [] (.head (.inclOpen c!"f" (exInc [1]) 1 [] [exPlain] { file := c!"f", parsed := [exInc [9]] } rfl)))
  refine .tail ?_ (.act _ _ _ [] [] (.head (.incl c!"f" (exInc [1]) [exPlain] rfl)))
  refine .tail ?_ (.act _ _ _ [] [] (.head (.plain c!"f" (exInc [1]) [exPlain] rfl)))
  exact .refl _

/-- **C65** is false of a payload made by hand: config 0 includes config 1, config 1 includes config 2 and then config -1, config 2 includes the missing config 9.
The result of the sequential model, and of some schedules, is the error; but the goroutine of config 1 goes on after it has sent the error, and crashes the program. -/
theorem C65_false_crash : ∃ (p : Payload) (c0 : Config) (rest : List Config) (e : GoErr), p.config = c0 :: rest ∧ combined 3 p = .err e ∧
    (∃ k s, CombRun p.config k (.init c0) s ∧ s.main = .returned (.error e)) ∧ ∃ k s, CombRun p.config k (.init c0) s ∧ s.main = .crashed := by
  have hp : combined 3 (exPay [[exInc [1]], [exInc [2, -1]], [exInc [9]]]) = .err (indexError c!"f" (exInc [9]) 9) := rfl
  refine ⟨exPay [[exInc [1]], [exInc [2, -1]], [exInc [9]]], _, _, indexError c!"f" (exInc [9]) 9, rfl, hp, C64_error rfl hp (.refl _) (by simp [CombSt.init]), 13,
    ⟨.crashed, [⟨c!"f", .send (.err (indexError c!"f" (exInc [9]) 9)) (.copy (exInc [1]) [] [])⟩, ⟨c!"f", .incl (exInc [2, -1]) [-1] []⟩], []⟩, ?_, rfl⟩
  refine .tail ?_ (.crash (.reading []) _ _ (by simp) (Or.inl (.deeper _ _ rfl (.here _ _ _ _ _ (by decide)))))
  refine .tail ?_ (.act _ _ _ [] [] (.deeper _ _ _ _ rfl (.head (.inclNext c!"f" (exInc [2, -1]) [-1] [] c!"f"))))
  refine .tail ?_ (.act _ _ _ [] [] (.head (.forward c!"f" (exInc [1]) [] [] c!"f" (.err (indexError c!"f" (exInc [9]) 9)) (.copy (exInc [2, -1]) [-1] []) [⟨c!"f", .ret⟩])))
  refine .tail ?_ (.act _ _ _ [] [] (.deeper _ _ _ _ rfl (.head (.forward c!"f" (exInc [2, -1]) [-1] [] c!"f" (.err (indexError c!"f" (exInc [9]) 9)) .ret []))))
  refine .tail ?_ (.act _ _ _ [] [] (.deeper _ _ _ _ rfl (.deeper _ _ _ _ rfl (.head (.inclBad c!"f" (exInc [9]) 9 [] [] (by decide))))))
  refine .tail ?_ (.act _ _ _ [] [] (.deeper _ _ _ _ rfl (.deeper _ _ _ _ rfl (.head (.incl c!"f" (exInc [9]) [] rfl)))))
  refine .tail ?_ (.act _ _ _ [] [] (.deeper _ _ _ _ rfl (.deeper _ _ _ _ rfl (.head (.plain c!"f" (exInc [9]) [] rfl)))))
  refine .tail ?_ (.act _ _ _ [] [] (.deeper _ _ _ _ rfl (.head (.inclOpen c!"f" (exInc [2, -1]) 2 [-1] [] { file := c!"f", parsed := [exInc [9]] } rfl))))
  refine .tail ?_ (.act _ _ _ [] [] (.deeper _ _ _ _ rfl (.head (.incl c!"f" (exInc [2, -1]) [] rfl))))
  refine .tail ?_ (.act _ _ _ [] [] (.deeper _ _ _ _ rfl (.head (.plain c!"f" (exInc [2, -1]) [] rfl))))
  refine .tail ?_ (.act _ _ _ [] [] (.head (.inclOpen c!"f" (exInc [1]) 1 [] [] { file := c!"f", parsed := [exInc [2, -1]] } rfl)))
  refine .tail ?_ (.act _ _ _ [] [] (.head (.incl c!"f" (exInc [1]) [] rfl)))
  refine .tail ?_ (.act _ _ _ [] [] (.head (.plain c!"f" (exInc [1]) [] rfl)))
  exact .refl _

end Verif
