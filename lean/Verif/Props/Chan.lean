import Verif.Proofs.ChanInv
/-!
# C01, C02: the token channel
-/
namespace Verif
open Spec

/-! ## C01 -/

/-- C01.  However lexer and reader are interleaved and whatever the capacity, the state of any deterministic reader is the
state after some number of receives from the token stream in order, and it received only while it wanted to. -/
theorem C01_receives_in_order {σ : Type} (R : Reader σ) (cap : Nat) (toks : List Tok) (s0 : σ) {n : Nat} {st : ChanSt σ}
    (h : ChanRun R cap n (.init toks s0) st) :
    ∃ k, st.rd = feed R s0 toks k ∧ ∀ m < k, R.wants (feed R s0 toks m) = true := by
  obtain ⟨⟨k, h1, _, h3⟩, _⟩ := chanInv_run h (chanInv_init toks s0)
  exact ⟨k, h1, h3⟩

/-- C01.  Any deterministic reader ends in the same state under all schedules and capacities. -/
theorem C01_schedule_independent {σ : Type} (R : Reader σ) (cap1 cap2 : Nat) (toks : List Tok) (s0 : σ)
    {n1 n2 : Nat} {st1 st2 : ChanSt σ}
    (h1 : ChanRun R cap1 n1 (.init toks s0) st1) (h2 : ChanRun R cap2 n2 (.init toks s0) st2)
    (d1 : R.wants st1.rd = false) (d2 : R.wants st2.rd = false) : st1.rd = st2.rd := by
  obtain ⟨k1, e1, w1⟩ := C01_receives_in_order R cap1 toks s0 h1
  obtain ⟨k2, e2, w2⟩ := C01_receives_in_order R cap2 toks s0 h2
  have : k1 = k2 := by
    rcases Nat.lt_trichotomy k1 k2 with h | h | h
    · have := w2 k1 h; rw [← e1, d1] at this; cases this
    · exact h
    · have := w1 k2 h; rw [← e2, d2] at this; cases this
  rw [e1, e2, this]

theorem feed_drain (toks : List Tok) (n : Nat) :
    feed drain ([], false) toks n = (toks.take n, decide (toks.length < n)) := by
  induction n with
  | zero => simp [feed]
  | succ n ih =>
    rw [feed_succ, ih]
    rcases Nat.lt_or_ge n toks.length with h | h
    · rw [List.getElem?_eq_getElem h, List.take_succ_eq_append_getElem h]
      simp [drain]; omega
    · rw [List.getElem?_eq_none h, List.take_of_length_le h, List.take_of_length_le (by omega)]
      simp [drain]; omega

/-- C01.  A reader that drains the channel has, when it stops, received exactly the tokens, in order, each once, and the
channel is closed and empty. -/
theorem C01_drain (cap : Nat) (toks : List Tok) {n : Nat} {st : ChanSt (List Tok × Bool)}
    (h : ChanRun drain cap n (.init toks ([], false)) st) (hd : drain.wants st.rd = false) :
    st.rd.1 = toks ∧ st.todo = [] ∧ st.buf = [] := by
  obtain ⟨⟨k, h1, h2, _⟩, _⟩ := chanInv_run h (chanInv_init toks ([], false))
  rw [feed_drain] at h1
  rw [h1] at hd
  simp [drain] at hd
  rw [List.drop_eq_nil_of_le (by omega)] at h2
  simp at h2
  exact ⟨by rw [h1]; exact List.take_of_length_le (by omega), h2.2, h2.1⟩

/-- At every moment the draining reader has received a prefix of the tokens. -/
theorem C01_drain_prefix (cap : Nat) (toks : List Tok) {n : Nat} {st : ChanSt (List Tok × Bool)}
    (h : ChanRun drain cap n (.init toks ([], false)) st) :
    st.rd.1 <+: toks := by
  obtain ⟨⟨k, h1, h2, _⟩, _⟩ := chanInv_run h (chanInv_init toks ([], false))
  rw [feed_drain] at h1
  rw [h1]; exact List.take_prefix ..

/-! ## C02 -/

/-- C02.  While the reader wants to receive, some step is possible. -/
theorem C02_no_deadlock {σ : Type} (R : Reader σ) (cap : Nat) (toks : List Tok) (s0 : σ) {n : Nat} {st : ChanSt σ}
    (_h : ChanRun R cap n (.init toks s0) st) (hw : R.wants st.rd = true) : ∃ st', ChanStep R cap st st' := by
  obtain ⟨todo, buf, closed, rd⟩ := st
  cases buf with
  | cons t buf => exact ⟨_, .receive t todo buf closed rd hw⟩
  | nil =>
    cases closed with
    | true => exact ⟨_, .receiveClosed todo rd hw⟩
    | false =>
      cases todo with
      | nil => exact ⟨_, .close [] rd⟩
      | cons t todo => exact ⟨_, .handoff t todo rd hw⟩

/-- C02.  With a reader that stops when it sees the channel closed, every schedule has at most `2·n + 2` steps, where `n` is the number of
tokens. -/
theorem C02_terminates {σ : Type} (R : Reader σ) (hstop : ∀ s, R.wants (R.step s none) = false) (cap : Nat)
    (toks : List Tok) (s0 : σ) {n : Nat} {st : ChanSt σ} (h : ChanRun R cap n (.init toks s0) st) :
    n ≤ 2 * toks.length + 2 := by
  have := chanMeasure_run hstop h
  have h2 : chanMeasure R (ChanSt.init toks s0) ≤ 2 * toks.length + 2 := by
    cases hh : R.wants s0 <;> simp [chanMeasure, ChanSt.init, hh]
  omega

/-- C02.  If a run with the draining reader cannot go on, the reader has everything and the lexer has closed the channel. -/
theorem C02_drain_completes (cap : Nat) (toks : List Tok) {n : Nat} {st : ChanSt (List Tok × Bool)}
    (h : ChanRun drain cap n (.init toks ([], false)) st) (hmax : ∀ st', ¬ ChanStep drain cap st st') :
    st.rd.1 = toks ∧ st.closed = true := by
  have hw : drain.wants st.rd = false := by
    cases hw : drain.wants st.rd with
    | false => rfl
    | true => obtain ⟨st', h'⟩ := C02_no_deadlock drain cap toks _ h hw; exact absurd h' (hmax st')
  obtain ⟨e1, e2, e3⟩ := C01_drain cap toks h hw
  refine ⟨e1, ?_⟩
  obtain ⟨todo, buf, closed, rd⟩ := st
  simp only at e2 e3
  subst e2 e3
  cases closed with
  | true => rfl
  | false => exact absurd (.close [] rd) (hmax _)

/-- C02.  If the reader has stopped early, the lexer goroutine can still finish (close the channel) exactly if the unread tokens fit into the
channel. -/
theorem C02_leak_iff {σ : Type} (R : Reader σ) (cap : Nat) (toks : List Tok) (s0 : σ) {n : Nat} {st : ChanSt σ}
    (h : ChanRun R cap n (.init toks s0) st) (hw : R.wants st.rd = false) :
    (∃ m st', ChanRun R cap m st st' ∧ st'.closed = true) ↔ st.buf.length + st.todo.length ≤ cap := by
  have hinv := chanInv_run h (chanInv_init toks s0)
  constructor
  · rintro ⟨m, st', hr, hc⟩
    have hinv' := chanInv_run hr hinv
    have := stopped_run hr hw
    have ht := hinv'.closedEmpty hc
    have hb := hinv'.bufCap
    have : (st'.buf ++ st'.todo).length = (st.buf ++ st.todo).length := by rw [this.2]
    simp [ht] at this
    omega
  · intro hle
    obtain ⟨todo, buf, closed, rd⟩ := st
    cases closed with
    | true => exact ⟨0, _, .refl _, rfl⟩
    | false =>
      obtain ⟨m, hm⟩ := can_close (R := R) (cap := cap) todo buf rd hle
      exact ⟨m, _, hm, rfl⟩

/-- C02.  In particular the goroutine leaks under every schedule if more tokens remain than fit: it never gets to close the channel, and
every run ends with the lexer blocked in a send. -/
theorem C02_leaks {σ : Type} (R : Reader σ) (cap : Nat) (toks : List Tok) (s0 : σ) {n : Nat} {st : ChanSt σ}
    (h : ChanRun R cap n (.init toks s0) st) (hw : R.wants st.rd = false) (hgt : cap < st.buf.length + st.todo.length)
    {m : Nat} {st' : ChanSt σ} (hr : ChanRun R cap m st st') : st'.closed = false ∧ st'.todo ≠ [] := by
  have hinv' := chanInv_run hr (chanInv_run h (chanInv_init toks s0))
  have hs := stopped_run hr hw
  have hl : (st'.buf ++ st'.todo).length = (st.buf ++ st.todo).length := by rw [hs.2]
  have hb := hinv'.bufCap
  have hne : st'.todo ≠ [] := by
    intro e; simp [e] at hl; omega
  refine ⟨?_, hne⟩
  cases hc : st'.closed with
  | false => rfl
  | true => exact absurd (hinv'.closedEmpty hc) hne

/-! ## Concrete runs -/

theorem lex_a : lex c!"a;" = [⟨c!"a", 1, false, none⟩, ⟨c!";", 1, false, none⟩] := by decide

/-- Two tokens through an unbuffered channel. -/
theorem run_cap0 : ∃ st, ChanRun drain 0 4 (.init (lex c!"a;") ([], false)) st ∧ drain.wants st.rd = false ∧ st.rd.1 = lex c!"a;" := by
  rw [lex_a]
  exact ⟨_, .tail (.tail (.tail (.tail (.refl _) (.handoff _ _ _ rfl)) (.handoff _ _ _ rfl)) (.close _ _))
    (.receiveClosed _ _ rfl), rfl, rfl⟩

/-- The same tokens through a channel with room for two: both are sent, the channel is closed, and only then the reader starts. -/
theorem run_cap2 : ∃ st, ChanRun drain 2 6 (.init (lex c!"a;") ([], false)) st ∧ drain.wants st.rd = false := by
  rw [lex_a]
  exact ⟨_, .tail (.tail (.tail (.tail (.tail (.tail (.refl _) (.send _ _ _ _ (by decide))) (.send _ _ _ _ (by decide))) (.close _ _)) (.receive _ _ _ _ _ rfl))
    (.receive _ _ _ _ _ rfl)) (.receiveClosed _ _ rfl), rfl⟩

/-- The two runs end with the same tokens (`C01_schedule_independent`, `C01_drain`), having received prefixes before (`C01_drain_prefix`). -/
example : ∃ st1 st2, ChanRun drain 0 4 (.init (lex c!"a;") ([], false)) st1 ∧ ChanRun drain 2 6 (.init (lex c!"a;") ([], false)) st2 ∧
    st1.rd = st2.rd ∧ st2.rd.1 = lex c!"a;" ∧ st2.todo = [] ∧ st1.rd.1 <+: lex c!"a;" ∧ ∃ k, st2.rd = feed drain ([], false) (lex c!"a;") k := by
  obtain ⟨st1, h1, w1, -⟩ := run_cap0
  obtain ⟨st2, h2, w2⟩ := run_cap2
  obtain ⟨k, hk, -⟩ := C01_receives_in_order _ _ _ _ h2
  exact ⟨st1, st2, h1, h2, C01_schedule_independent drain 0 2 _ _ h1 h2 w1 w2, (C01_drain 2 _ h2 w2).1, (C01_drain 2 _ h2 w2).2.1, C01_drain_prefix 0 _ h1, k, hk⟩

/-- At the start something can happen (`C02_no_deadlock`), and no run is longer than 6 steps (`C02_terminates`); the run of 6 steps is one. -/
example : (∃ st', ChanStep drain 2 (.init (lex c!"a;") ([], false)) st') ∧
    (∀ n st, ChanRun drain 2 n (.init (lex c!"a;") ([], false)) st → n ≤ 6) ∧ ∃ st, ChanRun drain 2 6 (.init (lex c!"a;") ([], false)) st :=
  ⟨C02_no_deadlock drain 2 _ _ (.refl _) rfl, fun _ _ h => by simpa [lex_a] using C02_terminates drain (fun _ => rfl) 2 _ _ h, run_cap2.imp fun _ h => h.1⟩

/-- A run that cannot go on has received everything (`C02_drain_completes`): here the one of 4 steps. -/
example {st : ChanSt (List Tok × Bool)} (h : ChanRun drain 0 4 (.init (lex c!"a;") ([], false)) st) (hd : ∀ st', ¬ ChanStep drain 0 st st') :
    st.rd.1 = lex c!"a;" ∧ st.closed = true := C02_drain_completes 0 _ h hd

/-- A reader that takes one token. -/
def takeOne : Reader Nat := ⟨fun s => s == 0, fun s _ => s + 1⟩

theorem run_takeOne (cap : Nat) : ChanRun takeOne cap 1 (.init (lex c!"a;") 0) ⟨[⟨c!";", 1, false, none⟩], [], false, 1⟩ := by
  rw [lex_a]
  exact .tail (.refl _) (.handoff _ _ _ rfl)

/-- A reader that stops after the first token leaves a goroutine blocked on an unbuffered channel (as `Parse` does with
`StopParsingOnError` after an error in the first statement; `C02_leaks`). -/
example {m : Nat} {st' : ChanSt Nat} (hr : ChanRun takeOne 0 m ⟨[⟨c!";", 1, false, none⟩], [], false, 1⟩ st') : st'.closed = false ∧ st'.todo ≠ [] :=
  C02_leaks takeOne 0 _ _ (run_takeOne 0) rfl (by decide) hr

/-- With room for one token it finishes (`C02_leak_iff`). -/
example : ∃ m st', ChanRun takeOne 1 m ⟨[⟨c!";", 1, false, none⟩], [], false, 1⟩ st' ∧ st'.closed = true :=
  (C02_leak_iff takeOne 1 _ _ (run_takeOne 1) rfl).mpr (by decide)

end Verif
