import Verif.Spec.Stream
/-!
# Invariants of the token channel
-/
namespace Verif
open Spec

variable {σ : Type} {R : Reader σ} {cap : Nat}

theorem feed_succ (s : σ) (ts : List Tok) (n : Nat) :
    feed R s ts (n + 1) = R.step (feed R s ts n) (ts[n]?) := by
  induction n generalizing s ts with
  | zero => cases ts <;> simp [feed]
  | succ n ih =>
    cases ts with
    | nil =>
      rw [feed, ih, feed]; simp
    | cons t ts =>
      rw [feed, ih, feed]; simp

/-- The state of the reader is determined by the number of receives. -/
structure ChanInv (R : Reader σ) (cap : Nat) (toks : List Tok) (s0 : σ) (st : ChanSt σ) : Prop where
  recv : ∃ n, st.rd = feed R s0 toks n ∧ st.buf ++ st.todo = toks.drop n ∧ ∀ m < n, R.wants (feed R s0 toks m) = true
  closedEmpty : st.closed = true → st.todo = []
  bufCap : st.buf.length ≤ cap

theorem chanInv_init (toks : List Tok) (s0 : σ) : ChanInv R cap toks s0 (.init toks s0) :=
  ⟨⟨0, rfl, rfl, by simp⟩, by simp [ChanSt.init], by simp [ChanSt.init]⟩

theorem drop_cons_getElem? {α : Type} {l r : List α} {n : Nat} {t : α} (h : t :: r = l.drop n) :
    l[n]? = some t ∧ r = l.drop (n + 1) := by
  constructor
  · have : (l.drop n)[0]? = some t := by rw [← h]; rfl
    simpa using this
  · have : (l.drop n).drop 1 = r := by rw [← h]; rfl
    rw [← this, List.drop_drop]

theorem chanInv_step {toks : List Tok} {s0 : σ} {a b : ChanSt σ} (h : ChanInv R cap toks s0 a) (hs : ChanStep R cap a b) :
    ChanInv R cap toks s0 b := by
  obtain ⟨⟨n, h1, h2, h3⟩, h4, h5⟩ := h
  cases hs with
  | send t todo buf r hl =>
    exact ⟨⟨n, h1, by simpa using h2, h3⟩, by simp, by simp; omega⟩
  | handoff t todo r hw =>
    obtain ⟨e1, e2⟩ := drop_cons_getElem? (by simpa using h2)
    simp only at h1 h4 h5
    refine ⟨⟨n + 1, ?_, by simpa using e2, ?_⟩, by simp, by simp⟩
    · rw [feed_succ, e1, ← h1]
    · intro m hm
      rcases Nat.lt_succ_iff_lt_or_eq.1 hm with hm | rfl
      · exact h3 m hm
      · rw [← h1]; exact hw
  | close buf r => exact ⟨⟨n, h1, h2, h3⟩, by simp, h5⟩
  | receive t todo buf c r hw =>
    obtain ⟨e1, e2⟩ := drop_cons_getElem? (by simpa using h2)
    simp only at h1 h4 h5
    refine ⟨⟨n + 1, ?_, by simpa using e2, ?_⟩, h4, ?_⟩
    · rw [feed_succ, e1, ← h1]
    · intro m hm
      rcases Nat.lt_succ_iff_lt_or_eq.1 hm with hm | rfl
      · exact h3 m hm
      · rw [← h1]; exact hw
    · simp at h5 ⊢; omega
  | receiveClosed todo r hw =>
    have ht : todo = [] := h4 rfl
    subst ht
    simp only [List.append_nil] at h1 h2
    have hn : toks.length ≤ n := by simpa using h2.symm
    refine ⟨⟨n + 1, ?_, ?_, ?_⟩, by simp, by simp⟩
    · rw [feed_succ, ← h1, List.getElem?_eq_none hn]
    · simp; omega
    · intro m hm
      rcases Nat.lt_succ_iff_lt_or_eq.1 hm with hm | rfl
      · exact h3 m hm
      · rw [← h1]; exact hw

theorem chanInv_run {toks : List Tok} {s0 : σ} {n : Nat} {a b : ChanSt σ} (hr : ChanRun R cap n a b)
    (h : ChanInv R cap toks s0 a) : ChanInv R cap toks s0 b := by
  induction hr with
  | refl => exact h
  | tail _ hs ih => exact chanInv_step (ih h) hs

/-- The measure that every step decreases. -/
def chanMeasure (R : Reader σ) (st : ChanSt σ) : Nat :=
  2 * st.todo.length + st.buf.length + (if st.closed then 0 else 1) + (if R.wants st.rd then 1 else 0)

theorem chanMeasure_step (hstop : ∀ s, R.wants (R.step s none) = false) {a b : ChanSt σ} (hs : ChanStep R cap a b) :
    chanMeasure R b < chanMeasure R a := by
  cases hs with
  | send t todo buf r hl => simp [chanMeasure]; omega
  | handoff t todo r hw => simp [chanMeasure, hw]; split <;> omega
  | close buf r => simp [chanMeasure]
  | receive t todo buf c r hw =>
    simp only [chanMeasure, hw, List.length_cons, if_true]
    have : (if R.wants (R.step r (some t)) = true then 1 else 0) ≤ 1 := by split <;> omega
    omega
  | receiveClosed todo r hw => simp [chanMeasure, hw, hstop]

theorem chanMeasure_run (hstop : ∀ s, R.wants (R.step s none) = false) {n : Nat} {a b : ChanSt σ}
    (hr : ChanRun R cap n a b) : n + chanMeasure R b ≤ chanMeasure R a := by
  induction hr with
  | refl => simp
  | tail _ hs ih => have := chanMeasure_step hstop hs; omega

/-- Once the reader has stopped, it stays stopped and the number of unread tokens stays. -/
theorem stopped_step {a b : ChanSt σ} (hs : ChanStep R cap a b) (hw : R.wants a.rd = false) :
    b.rd = a.rd ∧ b.buf ++ b.todo = a.buf ++ a.todo := by
  cases hs with
  | send t todo buf r hl => simp
  | handoff t todo r h => simp_all
  | close buf r => simp
  | receive t todo buf c r h => simp_all
  | receiveClosed todo r h => simp_all

theorem stopped_run {n : Nat} {a b : ChanSt σ} (hr : ChanRun R cap n a b) (hw : R.wants a.rd = false) :
    b.rd = a.rd ∧ b.buf ++ b.todo = a.buf ++ a.todo := by
  induction hr with
  | refl => simp
  | tail _ hs ih =>
    have := stopped_step hs (by rw [(ih hw).1]; exact hw)
    exact ⟨this.1.trans (ih hw).1, this.2.trans (ih hw).2⟩

theorem run_head {n : Nat} {a b c : ChanSt σ} (hs : ChanStep R cap a b) (hr : ChanRun R cap n b c) :
    ChanRun R cap (n + 1) a c := by
  induction hr with
  | refl => exact .tail (.refl _) hs
  | tail _ hs' ih => exact .tail (ih hs) hs'

/-- If there is room for everything, the lexer can send it all and close. -/
theorem can_close (todo : List Tok) : ∀ (buf : List Tok) (r : σ), buf.length + todo.length ≤ cap →
    ∃ n, ChanRun R cap n ⟨todo, buf, false, r⟩ ⟨[], buf ++ todo, true, r⟩ := by
  induction todo with
  | nil => intro buf r _; exact ⟨1, by simpa using ChanRun.tail (.refl _) (.close buf r)⟩
  | cons t todo ih =>
    intro buf r h
    obtain ⟨n, hn⟩ := ih (buf ++ [t]) r (by simp at h ⊢; omega)
    refine ⟨n + 1, run_head (.send t todo buf r (by simp at h; omega)) ?_⟩
    simpa using hn

end Verif
