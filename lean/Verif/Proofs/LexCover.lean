import Verif.Proofs.LexItems
/-!
# Every text is a sequence of items
-/
namespace Verif
open Spec

theorem units_cover_aux (n : Nat) : ∀ (s : Str), s.length ≤ n → '\r' ∉ s →
    ∃ us d, s = textOf us ++ d ∧ Dangling d ∧ ∀ u ∈ us, u.wf := by
  induction n with
  | zero =>
    intro s hn _
    have : s = [] := by cases s <;> simp_all
    subst this
    exact ⟨[], [], rfl, .inl rfl, by simp⟩
  | succ n ih =>
    intro s hn h
    match s, hn, h with
    | [], _, _ => exact ⟨[], [], rfl, .inl rfl, by simp⟩
    | c :: cs, hn, h =>
      have hc : c ≠ '\r' := fun e => h (by simp [e])
      have hcs : '\r' ∉ cs := fun e => h (by simp [e])
      have hl : cs.length ≤ n := by simpa using hn
      by_cases hb : c = '\\'
      · subst hb
        match cs, hl, hcs with
        | [], _, _ => exact ⟨[], ['\\'], rfl, .inr rfl, by simp⟩
        | c2 :: cs2, hl, hcs =>
          have hc2 : c2 ≠ '\r' := fun e => hcs (by simp [e])
          have hcs2 : '\r' ∉ cs2 := fun e => hcs (by simp [e])
          obtain ⟨us, d, e, hd, hu⟩ := ih cs2 (by simp at hl; omega) hcs2
          refine ⟨.esc c2 :: us, d, ?_, hd, ?_⟩
          · simp [textOf, U.text, e]
          · intro u hu'
            rcases List.mem_cons.1 hu' with rfl | hu'
            · exact hc2
            · exact hu u hu'
      · obtain ⟨us, d, e, hd, hu⟩ := ih cs hl hcs
        refine ⟨.plain c :: us, d, ?_, hd, ?_⟩
        · simp [textOf, U.text, e]
        · intro u hu'
          rcases List.mem_cons.1 hu' with rfl | hu'
          · exact ⟨hb, hc⟩
          · exact hu u hu'

theorem units_cover (s : Str) (h : '\r' ∉ s) : ∃ us d, s = textOf us ++ d ∧ Dangling d ∧ ∀ u ∈ us, u.wf :=
  units_cover_aux s.length s (Nat.le_refl _) h

/-- Read as much of a word as possible. -/
theorem run_max (p : WordPos) (us : List U) : ∃ us1 us2 p', us = us1 ++ us2 ∧ p.run us1 = some p' ∧
    (us2 = [] ∨ ∃ u us3, us2 = u :: us3 ∧ p'.next u = none) := by
  induction us generalizing p with
  | nil => exact ⟨[], [], p, rfl, rfl, .inl rfl⟩
  | cons u us ih =>
    cases hp : p.next u with
    | none => exact ⟨[], u :: us, p, rfl, rfl, .inr ⟨u, us, rfl, hp⟩⟩
    | some p1 =>
      obtain ⟨us1, us2, p', e, r, h⟩ := ih p1
      exact ⟨u :: us1, us2, p', by simp [e], by simp [WordPos.run, hp, r], h⟩

theorem next_none {p : WordPos} {u : U} (h : p.next u = none) :
    ∃ d c, p = .out d ∧ u = .plain c ∧ (isSpaceRune c = true ∨ (isSpecialChar c = true ∧ ¬ (c = '{' ∧ d = true))) := by
  cases p with
  | out d =>
    cases u with
    | plain c =>
      refine ⟨d, c, rfl, rfl, ?_⟩
      simp only [WordPos.next] at h
      by_cases h1 : isSpaceRune c = true
      · exact .inl h1
      · right
        simp only [h1] at h
        by_cases h2 : c = '{' ∧ d = true
        · simp [h2] at h
        · simp only [h2, if_false] at h
          by_cases h3 : isSpecialChar c = true
          · exact ⟨h3, h2⟩
          · simp [h3] at h
    | esc c => simp [WordPos.next] at h
  | var =>
    exfalso
    simp only [WordPos.next] at h
    split at h
    · cases h
    · split at h
      · split at h <;> cases h
      · cases h

theorem span_exists {α : Type} (P : α → Prop) [DecidablePred P] (l : List α) :
    ∃ a b, l = a ++ b ∧ (∀ x ∈ a, P x) ∧ (b = [] ∨ ∃ x b', b = x :: b' ∧ ¬ P x) := by
  induction l with
  | nil => exact ⟨[], [], rfl, by simp, .inl rfl⟩
  | cons x l ih =>
    by_cases hx : P x
    · obtain ⟨a, b, e, h1, h2⟩ := ih
      refine ⟨x :: a, b, by simp [e], ?_, h2⟩
      intro y hy
      rcases List.mem_cons.1 hy with rfl | hy
      · exact hx
      · exact h1 y hy
    · exact ⟨[], x :: l, rfl, by simp, .inr ⟨x, l, rfl, hx⟩⟩

theorem textOf_append (a b : List U) : textOf (a ++ b) = textOf a ++ textOf b := by simp [textOf]
theorem textOf_cons (a : U) (b : List U) : textOf (a :: b) = a.text ++ textOf b := by simp [textOf]
theorem unlex_cons (a : Item) (b : List Item) : unlex (a :: b) = a.text ++ unlex b := by simp [unlex]

theorem items_cover (n : Nat) : ∀ us : List U, us.length ≤ n → (∀ u ∈ us, u.wf) →
    ∃ items, unlex items = textOf us ∧ WF items ∧ (us = [] → items = []) ∧
      (∀ c us', us = .plain c :: us' → isSpaceRune c = true → ∃ r, items = .space c :: r) ∧
      (∀ c us', us = .plain c :: us' → isSpecialChar c = true → ∃ r, items = .special c :: r) := by
  induction n with
  | zero =>
    intro us hn _
    have : us = [] := by cases us <;> simp_all
    subst this
    exact ⟨[], rfl, trivial, fun _ => rfl, by simp, by simp⟩
  | succ n ih =>
    intro us hn hwf
    match us, hn, hwf with
    | [], _, _ => exact ⟨[], rfl, trivial, fun _ => rfl, by simp, by simp⟩
    | u :: us, hn, hwf =>
      have hu : u.wf := hwf u (by simp)
      have hus : ∀ v ∈ us, v.wf := fun v hv => hwf v (by simp [hv])
      have hlen : us.length ≤ n := by simpa using hn
      by_cases hsp : ∃ c, u = .plain c ∧ isSpaceRune c = true
      · obtain ⟨c, rfl, hc⟩ := hsp
        obtain ⟨items, e, w, _⟩ := ih us hlen hus
        have hns : isSpecialChar c = false := by
          cases h : isSpecialChar c with
          | false => rfl
          | true =>
            simp only [isSpecialChar, Bool.or_eq_true, decide_eq_true_eq] at h
            rcases h with (rfl | rfl) | rfl <;> revert hc <;> decide
        refine ⟨.space c :: items, ?_, ⟨hc, hu.2, w⟩, by simp, ?_, ?_⟩
        · rw [unlex_cons, textOf_cons, e]; rfl
        · intro c' us' h _; cases h; exact ⟨items, rfl⟩
        · intro c' us' h h2; cases h; rw [hns] at h2; cases h2
      by_cases hsc : ∃ c, u = .plain c ∧ isSpecialChar c = true
      · obtain ⟨c, rfl, hc⟩ := hsc
        obtain ⟨items, e, w, _⟩ := ih us hlen hus
        refine ⟨.special c :: items, ?_, ⟨hc, w⟩, by simp, ?_, ?_⟩
        · rw [unlex_cons, textOf_cons, e]; rfl
        · intro c' us' h h2; cases h; exact absurd ⟨c, rfl, h2⟩ hsp
        · intro c' us' h _; cases h; exact ⟨items, rfl⟩
      have hside : ∀ items : List Item,
          (∀ c us', u :: us = .plain c :: us' → isSpaceRune c = true → ∃ r, items = .space c :: r) ∧
          (∀ c us', u :: us = .plain c :: us' → isSpecialChar c = true → ∃ r, items = .special c :: r) := by
        intro items
        exact ⟨fun c us' h h2 => by cases h; exact absurd ⟨c, rfl, h2⟩ hsp,
          fun c us' h h2 => by cases h; exact absurd ⟨c, rfl, h2⟩ hsc⟩
      by_cases hq : ∃ q, u = .plain q ∧ (q = '"' ∨ q = '\'')
      · obtain ⟨q, rfl, hq⟩ := hq
        obtain ⟨a, b, e, h1, h2⟩ := span_exists (fun u => u ≠ U.plain q) us
        rcases h2 with rfl | ⟨x, b', rfl, hx⟩
        · refine ⟨[.quoted q a false], ?_, ⟨hq, ?_, fun _ => rfl, trivial⟩, by simp, hside _⟩
          · simp [unlex, Item.text, textOf_cons, U.text, e]
          · intro v hv; exact ⟨hus v (by rw [e]; simp [hv]), h1 v hv⟩
        · have hx : x = .plain q := by simpa using hx
          subst hx
          obtain ⟨items, e2, w, _⟩ := ih b' (by rw [e] at hlen; simp at hlen; omega)
            (fun v hv => hus v (by rw [e]; simp [hv]))
          refine ⟨.quoted q a true :: items, ?_, ⟨hq, ?_, by simp, w⟩, by simp, hside _⟩
          · rw [unlex_cons, e2, e]; simp [Item.text, textOf_cons, textOf_append, U.text]
          · intro v hv; exact ⟨hus v (by rw [e]; simp [hv]), h1 v hv⟩
      by_cases hh : u = .plain '#'
      · subst hh
        obtain ⟨a, b, e, h1, h2⟩ := span_exists (fun u => U.char u ≠ '\n') us
        rcases h2 with rfl | ⟨x, b', rfl, hx⟩
        · refine ⟨[.comment a .eof], ?_, ⟨?_, fun _ => rfl, trivial⟩, by simp, hside _⟩
          · simp [unlex, Item.text, textOf_cons, U.text, e, CommentEnd.text]
          · intro v hv; exact ⟨hus v (by rw [e]; simp [hv]), h1 v hv⟩
        · have hx : x.char = '\n' := by simpa using hx
          obtain ⟨items, e2, w, _⟩ := ih b' (by rw [e] at hlen; simp at hlen; omega)
            (fun v hv => hus v (by rw [e]; simp [hv]))
          cases x with
          | plain c =>
            have : c = '\n' := hx
            subst this
            refine ⟨.comment a .nl :: items, ?_, ⟨?_, by simp, w⟩, by simp, hside _⟩
            · rw [unlex_cons, e2, e]; simp [Item.text, textOf_cons, textOf_append, U.text, CommentEnd.text]
            · intro v hv; exact ⟨hus v (by rw [e]; simp [hv]), h1 v hv⟩
          | esc c =>
            have : c = '\n' := hx
            subst this
            refine ⟨.comment a .escNl :: items, ?_, ⟨?_, by simp, w⟩, by simp, hside _⟩
            · rw [unlex_cons, e2, e]; simp [Item.text, textOf_cons, textOf_append, U.text, CommentEnd.text]
            · intro v hv; exact ⟨hus v (by rw [e]; simp [hv]), h1 v hv⟩
      have hstart : startsWord u := by
        cases u with
        | plain c =>
          refine ⟨fun h => hsp ⟨c, rfl, h⟩, fun h => hsc ⟨c, rfl, h⟩, fun h => hq ⟨c, rfl, .inl h⟩,
            fun h => hq ⟨c, rfl, .inr h⟩, fun h => hh (by rw [h])⟩
        | esc c => trivial
      obtain ⟨us1, us2, p', e, r, h2⟩ := run_max (.out false) (u :: us)
      have hne : us1 ≠ [] := by
        rintro rfl
        simp only [WordPos.run, Option.some.injEq] at r
        simp only [List.nil_append] at e
        subst r e
        rcases h2 with h2 | ⟨u', us3, h2, h3⟩
        · cases h2
        · cases h2
          obtain ⟨d, c, _, rfl, h4⟩ := next_none h3
          rcases h4 with h4 | h4
          · exact hsp ⟨c, rfl, h4⟩
          · exact hsc ⟨c, rfl, h4.1⟩
      obtain ⟨v, us1', rfl⟩ := List.exists_cons_of_ne_nil hne
      have hv : u = v := by simp at e; exact e.1
      subst hv
      have e' : us = us1' ++ us2 := by simpa using e
      have hl2 : us2.length ≤ n := by rw [e'] at hlen; simp at hlen; omega
      obtain ⟨items, e2, w, i0, i1, i2⟩ := ih us2 hl2 (fun v hv => hus v (by rw [e']; simp [hv]))
      refine ⟨.word (u :: us1') :: items, ?_, ⟨?_, ⟨u, us1', rfl, hstart⟩, ⟨p', r, ?_⟩, w⟩, by simp, hside _⟩
      · rw [unlex_cons, e2, e, textOf_append]; rfl
      · intro v hv
        exact hwf v (by rw [e]; simp only [List.mem_append]; exact .inl hv)
      · rcases h2 with rfl | ⟨x, us3, rfl, h3⟩
        · rw [i0 rfl]; cases p' <;> trivial
        · obtain ⟨d, c, rfl, rfl, h4⟩ := next_none h3
          rcases h4 with h4 | h4
          · obtain ⟨r, rfl⟩ := i1 c us3 rfl h4; trivial
          · obtain ⟨r, rfl⟩ := i2 c us3 rfl h4.1; exact h4.2

/-- Every text without carriage returns is the text of a well-formed sequence of items, possibly followed by a single
backslash at the very end. -/
theorem text_cover (s : Str) (h : '\r' ∉ s) : ∃ items d, s = unlex items ++ d ∧ WF items ∧ Dangling d := by
  obtain ⟨us, d, e, hd, hu⟩ := units_cover s h
  obtain ⟨items, e2, w, _⟩ := items_cover us.length us (Nat.le_refl _) hu
  exact ⟨items, d, by rw [e2, e], w, hd⟩

/-- Carriage returns do not matter. -/
theorem loop_filter_cr (st : LexSt) (s : Str) : loop st (s.filter (· ≠ '\r')) = loop st s := by
  induction s generalizing st with
  | nil => rfl
  | cons c cs ih =>
    by_cases hc : c = '\r'
    · subst hc; rw [loop_cr]; simpa using ih st
    · have : (c :: cs).filter (· ≠ '\r') = c :: cs.filter (· ≠ '\r') := by simp [hc]
      rw [this]
      by_cases he : st.esc = true
      · rw [loop_esc st c _ he hc, loop_esc st c _ he hc]
        rcases lexSwitch { bump st c with esc := false } ['\\', c] with ⟨out, o⟩
        cases o <;> simp only [contin, ih]
      · have he : st.esc = false := by simpa using he
        by_cases hb : c = '\\'
        · subst hb; rw [loop_backslash st _ he, loop_backslash st _ he, ih]
        · rw [loop_plain st c _ he hc hb, loop_plain st c _ he hc hb]
          rcases lexSwitch { bump st c with esc := false } [c] with ⟨out, o⟩
          cases o <;> simp only [contin, ih]

end Verif
