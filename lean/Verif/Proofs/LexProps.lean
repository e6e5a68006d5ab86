import Verif.Proofs.LexCover
import Mathlib.Tactic.Tauto
import Mathlib.Tactic.ByContra
/-!
# Consequences for the tokens of a text
-/
namespace Verif
open Spec

/-- Balanced, starting with `d` open braces. -/
def BalFrom (d : Nat) (cs : List Char) : Prop :=
  (∀ p, p <+: cs → p.count '}' ≤ d + p.count '{') ∧ cs.count '}' = d + cs.count '{'

theorem prefix_cons_cases {α : Type} {p : List α} {c : α} {cs : List α} :
    p <+: c :: cs ↔ p = [] ∨ ∃ q, p = c :: q ∧ q <+: cs := by
  constructor
  · intro h
    cases p with
    | nil => exact .inl rfl
    | cons x q =>
      rw [List.cons_prefix_cons] at h
      exact .inr ⟨q, by rw [h.1], h.2⟩
  · rintro (rfl | ⟨q, rfl, h⟩)
    · exact List.nil_prefix
    · exact List.cons_prefix_cons.2 ⟨rfl, h⟩

theorem balFrom_nil (d : Nat) : BalFrom d [] ↔ d = 0 := by
  simp [BalFrom]; omega

theorem balFrom_open (d : Nat) (cs : List Char) : BalFrom d ('{' :: cs) ↔ BalFrom (d + 1) cs := by
  simp only [BalFrom, prefix_cons_cases]
  constructor
  · rintro ⟨h1, h2⟩
    refine ⟨fun p hp => ?_, ?_⟩
    · have := h1 ('{' :: p) (.inr ⟨p, rfl, hp⟩); simp at this; omega
    · simp at h2; omega
  · rintro ⟨h1, h2⟩
    refine ⟨?_, ?_⟩
    · rintro p (rfl | ⟨q, rfl, hq⟩)
      · simp
      · have := h1 q hq; simp; omega
    · simp; omega

theorem balFrom_close (d : Nat) (cs : List Char) : BalFrom d ('}' :: cs) ↔ d ≠ 0 ∧ BalFrom (d - 1) cs := by
  simp only [BalFrom, prefix_cons_cases]
  constructor
  · rintro ⟨h1, h2⟩
    have h0 := h1 ['}'] (.inr ⟨[], rfl, List.nil_prefix⟩)
    simp at h0
    refine ⟨by omega, fun p hp => ?_, ?_⟩
    · have := h1 ('}' :: p) (.inr ⟨p, rfl, hp⟩); simp at this; omega
    · simp at h2; omega
  · rintro ⟨h0, h1, h2⟩
    refine ⟨?_, ?_⟩
    · rintro p (rfl | ⟨q, rfl, hq⟩)
      · simp
      · have := h1 q hq; simp; omega
    · simp; omega

theorem balFrom_semi (d : Nat) (cs : List Char) : BalFrom d (';' :: cs) ↔ BalFrom d cs := by
  simp only [BalFrom, prefix_cons_cases]
  constructor
  · rintro ⟨h1, h2⟩
    refine ⟨fun p hp => ?_, ?_⟩
    · have := h1 (';' :: p) (.inr ⟨p, rfl, hp⟩); simpa using this
    · simpa using h2
  · rintro ⟨h1, h2⟩
    refine ⟨?_, ?_⟩
    · rintro p (rfl | ⟨q, rfl, hq⟩)
      · simp
      · have := h1 q hq; simpa using this
    · simpa using h2

theorem balFrom_zero (cs : List Char) : BalFrom 0 cs ↔ Balanced cs := by simp [BalFrom, Balanced]

theorem specialChar_cases {c : Char} (h : isSpecialChar c = true) : c = '{' ∨ c = '}' ∨ c = ';' := by
  simpa [isSpecialChar, or_assoc] using h

/-- No error iff nesting is right. -/
theorem specToks_noerr {items : List Item} (hw : WF items) : ∀ {line start depth dup g},
    (∀ t ∈ specToks line start depth dup g items, t.error = none) ↔
      NoClash dup items ∧ BalFrom depth (specials items) := by
  induction items with
  | nil =>
    intro line start depth dup g
    simp only [specToks, NoClash, specials, balFrom_nil]
    by_cases h : depth = 0
    · simp [h]
    · simp [h, Nat.pos_of_ne_zero h]
  | cons i rest ih =>
    intro line start depth dup g
    cases i with
    | space c => simp only [specToks, NoClash, specials]; exact ih hw.2.2
    | word us => simp only [specToks, NoClash, specials, List.forall_mem_cons, true_and]; exact ih hw.2.2.2
    | quoted q us closed =>
      simp only [specToks, NoClash, specials]
      have : ∀ t ∈ (if closed = true ∨ quotedValue q us ≠ [] then [(⟨quotedValue q us, line, true, none⟩ : Tok)] else []),
          t.error = none := by split <;> simp
      rw [List.forall_mem_append]
      constructor
      · rintro ⟨_, h⟩; exact (ih hw.2.2.2).1 h
      · intro h; exact ⟨this, (ih hw.2.2.2).2 h⟩
    | comment us e => simp only [specToks, NoClash, specials, List.forall_mem_cons, true_and]; exact ih hw.2.2
    | special c =>
      simp only [specToks, NoClash, specials]
      have hc := specialChar_cases hw.1
      by_cases h1 : dup = true ∧ c ≠ '}'
      · rw [if_pos h1]
        simp only [List.mem_singleton, forall_eq]
        constructor
        · intro h; cases h
        · rintro ⟨⟨h, _⟩, _⟩; exact absurd (h h1.1) h1.2
      · rw [if_neg h1]
        have h1' : dup = true → c = '}' := by
          intro h; by_contra h'; exact h1 ⟨h, h'⟩
        by_cases h2 : c = '}' ∧ depth = 0
        · rw [if_pos h2]
          obtain ⟨rfl, rfl⟩ := h2
          simp [balFrom_close]
        · rw [if_neg h2]
          simp only [List.forall_mem_cons, true_and]
          rw [ih hw.2]
          rcases hc with rfl | rfl | rfl
          · simp only [balFrom_open, h1', implies_true, true_and, if_true, and_true]
            have : dup = true → False := fun h => absurd (h1' h) (by decide)
            tauto
          · have : depth ≠ 0 := fun h => h2 ⟨rfl, h⟩
            simp [balFrom_close, this]
          · have : dup = true → False := fun h => absurd (h1' h) (by decide)
            have e : (if ';' = '{' then depth + 1 else if ';' = '}' then depth - 1 else depth) = depth := by simp
            rw [balFrom_semi, e]
            tauto

/-- Unquoted tokens that are a single special character. -/
def braceOf (t : Tok) : Option Char :=
  match t.quoted, t.error, t.value with
  | false, none, [c] => if isSpecialChar c then some c else none
  | _, _, _ => none

theorem braceOf_word {us : List U} (hu : ∃ u us', us = u :: us' ∧ startsWord u) (line : Int) :
    braceOf ⟨textOf us, line, false, none⟩ = none := by
  obtain ⟨u, us', rfl, hs⟩ := hu
  simp only [braceOf]
  split
  · rename_i c _ _ h
    cases u with
    | plain c' =>
      simp [textOf_cons, U.text] at h
      obtain ⟨rfl, _⟩ := h
      simp [hs.2.1]
    | esc c' => simp [textOf_cons, U.text] at h
  · rfl

theorem specToks_braces {items : List Item} (hw : WF items) : ∀ {line start depth dup g},
    (∀ t ∈ specToks line start depth dup g items, t.error = none) →
    (specToks line start depth dup g items).filterMap braceOf = specials items := by
  induction items with
  | nil =>
    intro line start depth dup g h
    simp only [specToks] at h ⊢
    by_cases h0 : depth > 0
    · simp [h0] at h
    · simp [h0, specials]
  | cons i rest ih =>
    intro line start depth dup g h
    cases i with
    | space c => simp only [specToks] at h ⊢; exact ih hw.2.2 h
    | word us =>
      simp only [specToks, List.forall_mem_cons] at h ⊢
      rw [List.filterMap_cons, braceOf_word hw.2.1]
      exact ih hw.2.2.2 h.2
    | quoted q us closed =>
      simp only [specToks, List.forall_mem_append] at h ⊢
      rw [List.filterMap_append, ih hw.2.2.2 h.2]
      split <;> simp [braceOf, specials]
    | comment us e =>
      simp only [specToks, List.forall_mem_cons] at h ⊢
      rw [List.filterMap_cons, ih hw.2.2 h.2]
      have : braceOf ⟨'#' :: textOf us, line, false, none⟩ = none := by
        simp only [braceOf]; split
        · rename_i c _ _ h'; simp at h'; rw [← h'.1]; rfl
        · rfl
      rw [this]; simp [specials]
    | special c =>
      simp only [specToks] at h ⊢
      by_cases h1 : dup = true ∧ c ≠ '}'
      · rw [if_pos h1] at h; simp at h
      · rw [if_neg h1] at h ⊢
        by_cases h2 : c = '}' ∧ depth = 0
        · rw [if_pos h2] at h; simp at h
        · rw [if_neg h2] at h ⊢
          simp only [List.forall_mem_cons] at h
          rw [List.filterMap_cons, ih hw.2 h.2]
          simp [braceOf, hw.1, specials]

/-- Lines: monotone and bounded. -/
theorem specToks_lines {items : List Item} (hw : WF items) : ∀ {line start depth dup g}, start ≤ line →
    (specToks line start depth dup g items).Pairwise (fun a b => a.line ≤ b.line) ∧
    ∀ t ∈ specToks line start depth dup g items, start ≤ t.line ∧ t.line ≤ line + nls (unlex items) := by
  have nn : ∀ s, 0 ≤ nls s := fun s => by simp [nls]
  induction items with
  | nil =>
    intro line start depth dup g h
    simp only [specToks]
    split
    · simp [unlex, nls_nil, h]
    · simp
  | cons i rest ih =>
    intro line start depth dup g h
    rw [unlex_cons, nls_append]
    have hnr := nn (unlex rest)
    cases i with
    | space c =>
      simp only [specToks, Item.text]
      have hn := nn [c]
      obtain ⟨p, q⟩ := ih hw.2.2 (line := line + nls [c]) (start := start) (depth := depth) (dup := dup) (g := false)
        (by omega)
      refine ⟨p, fun t ht => ?_⟩
      have := q t ht; omega
    | word us =>
      simp only [specToks, Item.text]
      have hn := nn (textOf us)
      have hwl : line ≤ wordLine line us ∧ wordLine line us ≤ line + nls (textOf us) := by
        unfold wordLine
        split
        · rename_i us'
          have := nn (textOf us')
          have h2 : nls (U.text (.esc '\n')) = 1 := by decide
          rw [textOf_cons, nls_append, h2]; omega
        · omega
      obtain ⟨p, q⟩ := ih hw.2.2.2 (line := line + nls (textOf us)) (start := wordLine line us) (depth := depth)
        (dup := false) (g := true) (by omega)
      refine ⟨List.pairwise_cons.2 ⟨fun t ht => (q t ht).1, p⟩, ?_⟩
      intro t ht
      rcases List.mem_cons.1 ht with rfl | ht
      · simp only; omega
      · have := q t ht; omega
    | quoted qc us closed =>
      simp only [specToks, Item.text]
      have hn := nn (textOf us)
      have hn2 := nn (qc :: textOf us ++ if closed = true then [qc] else [])
      have hqn : nls (qc :: textOf us ++ if closed = true then [qc] else []) = nls (textOf us) := by
        have h0 : nls [qc] = 0 := by rcases hw.1 with rfl | rfl <;> decide
        have : qc :: textOf us ++ (if closed = true then [qc] else []) =
            [qc] ++ textOf us ++ (if closed = true then [qc] else []) := by simp
        rw [this, nls_append, nls_append, h0]
        split <;> simp [h0, nls_nil]
      rw [hqn]
      obtain ⟨p, q⟩ := ih hw.2.2.2 (line := line + nls (textOf us)) (start := line) (depth := depth)
        (dup := false) (g := false) (by omega)
      refine ⟨?_, ?_⟩
      · rw [List.pairwise_append]
        refine ⟨by split <;> simp, p, ?_⟩
        intro a ha b hb
        have : a.line = line := by
          split at ha
          · simp at ha; rw [ha]
          · simp at ha
        rw [this]; exact (q b hb).1
      · intro t ht
        rcases List.mem_append.1 ht with ht | ht
        · have : t.line = line := by
            split at ht
            · simp at ht; rw [ht]
            · simp at ht
          omega
        · have := q t ht; omega
    | comment us e =>
      simp only [specToks, Item.text]
      have hn := nn e.text
      have hn2 := nn ('#' :: textOf us)
      rw [nls_append]
      obtain ⟨p, q⟩ := ih hw.2.2 (line := line + nls e.text) (start := line) (depth := depth)
        (dup := dup) (g := false) (by omega)
      refine ⟨List.pairwise_cons.2 ⟨fun t ht => (q t ht).1, p⟩, ?_⟩
      intro t ht
      rcases List.mem_cons.1 ht with rfl | ht
      · simp only; omega
      · have := q t ht; omega
    | special c =>
      simp only [specToks, Item.text]
      have hn := nn [c]
      have hst : start ≤ (if g = true then start else line) ∧ (if g = true then start else line) ≤ line := by
        split <;> omega
      generalize (if g = true then start else line) = st at hst
      by_cases h1 : dup = true ∧ c ≠ '}'
      · rw [if_pos h1]; simp; omega
      · rw [if_neg h1]
        by_cases h2 : c = '}' ∧ depth = 0
        · rw [if_pos h2]; simp; omega
        · rw [if_neg h2]
          obtain ⟨p, q⟩ := ih hw.2 (line := line) (start := st)
            (depth := if c = '{' then depth + 1 else if c = '}' then depth - 1 else depth)
            (dup := true) (g := false) (by omega)
          refine ⟨List.pairwise_cons.2 ⟨fun t ht => (q t ht).1, p⟩, ?_⟩
          intro t ht
          rcases List.mem_cons.1 ht with rfl | ht
          · simp only; omega
          · have := q t ht; omega

/-- Lines are those of the items when words contain no line feed. -/
theorem specToks_itemLines {items : List Item} (hw : WF items)
    (hm : ∀ us, Item.word us ∈ items → '\n' ∉ textOf us) : ∀ {line start depth dup g},
    (g = true → start = line) →
    ((specToks line start depth dup g items).filter (·.error = none)).map (·.line) <+: itemLines line items := by
  induction items with
  | nil =>
    intro line start depth dup g h
    simp only [specToks]; split <;> simp
  | cons i rest ih =>
    intro line start depth dup g h
    have hm' : ∀ us, Item.word us ∈ rest → '\n' ∉ textOf us := fun us hu => hm us (by simp [hu])
    cases i with
    | space c =>
      simp only [specToks, itemLines]
      exact ih hw.2.2 hm' (by simp)
    | word us =>
      have h0 := hm us (by simp)
      have h1 : nls (textOf us) = 0 := by simp [nls, List.count_eq_zero.2 h0]
      have h2 : wordLine line us = line := by
        unfold wordLine; split
        · exact absurd (by simp [textOf_cons, U.text]) h0
        · rfl
      simp only [specToks, itemLines, h1, h2, Item.text, Int.add_zero]
      simp only [decide_true, List.filter_cons_of_pos, List.map_cons, List.cons_prefix_cons, true_and]
      exact ih hw.2.2.2 hm' (by simp)
    | quoted q us closed =>
      simp only [specToks, itemLines, List.filter_append, List.map_append]
      have h0 : nls [q] = 0 := by rcases hw.1 with rfl | rfl <;> decide
      have hqn : nls (Item.text (.quoted q us closed)) = nls (textOf us) := by
        have : Item.text (.quoted q us closed) = [q] ++ textOf us ++ (if closed = true then [q] else []) := by
          simp [Item.text]
        rw [this, nls_append, nls_append, h0]
        split <;> simp [h0, nls_nil]
      rw [hqn]
      by_cases hc : closed = true ∨ quotedValue q us ≠ []
      · rw [if_pos hc]
        simp only [decide_true, List.filter_cons_of_pos, List.filter_nil, List.map_cons, List.map_nil,
          List.singleton_append, List.cons_prefix_cons, true_and]
        exact ih hw.2.2.2 hm' (by simp)
      · rw [if_neg hc]
        have : rest = [] := hw.2.2.1 (by cases closed <;> simp_all)
        subst this
        simp only [specToks]
        split <;> simp
    | comment us e =>
      have h1 : nls (Item.text (.comment us e)) = nls e.text := by
        have : Item.text (.comment us e) = ['#'] ++ textOf us ++ e.text := by simp [Item.text]
        have h2 : nls (textOf us) = 0 := by
          simp only [nls, Int.natCast_eq_zero, List.count_eq_zero, textOf, List.mem_flatMap, not_exists, not_and]
          intro u hu hc
          have := (hw.1 u hu).2
          cases u <;> simp [U.text, U.char] at hc this <;> exact this hc.symm
        have h3 : nls ['#'] = 0 := by decide
        rw [this, nls_append, nls_append, h2, h3]; simp
      simp only [specToks, itemLines, h1]
      simp only [decide_true, List.filter_cons_of_pos, List.map_cons, List.cons_prefix_cons, true_and]
      exact ih hw.2.2 hm' (by simp)
    | special c =>
      have hc := specialChar_cases hw.1
      have h1 : nls (Item.text (.special c)) = 0 := by
        simp only [Item.text]; rcases hc with rfl | rfl | rfl <;> decide
      simp only [specToks, itemLines, h1, Int.add_zero]
      have hst : (if g = true then start else line) = line := by
        split
        · exact h (by assumption)
        · rfl
      rw [hst]
      split
      · simp
      · split
        · simp
        · simp only [decide_true, List.filter_cons_of_pos, List.map_cons, List.cons_prefix_cons, true_and]
          exact ih hw.2 hm' (by simp)

/-- Errors: at the end, at most one, with the current line. -/
def ErrAt (line : Int) (items : List Item) (e : GoErr) : Prop :=
  e = err c!"unexpected end of file, expecting \"}\"" (line + nls (unlex items)) ∨
  ∃ pre c post, items = pre ++ .special c :: post ∧
    e = err (c!"unexpected \"" ++ [c] ++ c!"\"") (line + nls (unlex pre))

theorem errAt_cons {line : Int} {i : Item} {rest : List Item} {e : GoErr} {l : Int}
    (hl : l = line + nls i.text) (h : ErrAt l rest e) : ErrAt line (i :: rest) e := by
  subst hl
  rcases h with h | ⟨pre, c, post, e1, e2⟩
  · left; rw [h, unlex_cons, nls_append, Int.add_assoc]
  · right
    exact ⟨i :: pre, c, post, by simp [e1], by rw [e2, unlex_cons, nls_append, Int.add_assoc]⟩

theorem nls_quoted {q : Char} {us : List U} {closed : Bool} (hq : q = '"' ∨ q = '\'') :
    nls (Item.text (.quoted q us closed)) = nls (textOf us) := by
  have h0 : nls [q] = 0 := by rcases hq with rfl | rfl <;> decide
  have : Item.text (.quoted q us closed) = [q] ++ textOf us ++ (if closed = true then [q] else []) := by
    simp [Item.text]
  rw [this, nls_append, nls_append, h0]
  split <;> simp [h0, nls_nil]

theorem no_nl_comment {us : List U} (hu : ∀ u ∈ us, U.char u ≠ '\n') : '\n' ∉ textOf us := by
  simp only [textOf, List.mem_flatMap, not_exists, not_and]
  intro u h hc
  have := hu u h
  cases u <;> simp [U.text, U.char] at hc this <;> exact this hc.symm

theorem nls_comment {us : List U} {e : CommentEnd} (hu : ∀ u ∈ us, U.char u ≠ '\n') :
    nls (Item.text (.comment us e)) = nls e.text := by
  have : Item.text (.comment us e) = ['#'] ++ textOf us ++ e.text := by simp [Item.text]
  have h2 : nls (textOf us) = 0 := by simp [nls, List.count_eq_zero.2 (no_nl_comment hu)]
  have h3 : nls ['#'] = 0 := by decide
  rw [this, nls_append, nls_append, h2, h3]; simp

theorem nls_special {c : Char} (h : isSpecialChar c = true) : nls (Item.text (.special c)) = 0 := by
  simp only [Item.text]; rcases specialChar_cases h with rfl | rfl | rfl <;> decide

theorem specToks_err {items : List Item} (hw : WF items) : ∀ {line start depth dup g},
    (∀ t ∈ specToks line start depth dup g items, t.error = none) ∨
    ∃ ts t e, specToks line start depth dup g items = ts ++ [t] ∧ (∀ t ∈ ts, t.error = none) ∧
      t.error = some e ∧ t.value = [] ∧ t.quoted = false ∧ ErrAt line items e := by
  induction items with
  | nil =>
    intro line start depth dup g
    simp only [specToks]
    split
    · right
      exact ⟨[], _, _, rfl, by simp, rfl, rfl, rfl, .inl (by simp [unlex, nls_nil])⟩
    · left; simp
  | cons i rest ih =>
    intro line start depth dup g
    have step : ∀ (pre : List Tok) (l s : Int) (d : Nat) (du g' : Bool), (∀ t ∈ pre, t.error = none) → WF rest →
        l = line + nls i.text →
        specToks line start depth dup g (i :: rest) = pre ++ specToks l s d du g' rest →
        (∀ t ∈ specToks line start depth dup g (i :: rest), t.error = none) ∨
        ∃ ts t e, specToks line start depth dup g (i :: rest) = ts ++ [t] ∧ (∀ t ∈ ts, t.error = none) ∧
          t.error = some e ∧ t.value = [] ∧ t.quoted = false ∧ ErrAt line (i :: rest) e := by
      intro pre l s d du g' hp hwr hl he
      rw [he]
      rcases ih hwr (line := l) (start := s) (depth := d) (dup := du) (g := g') with h | ⟨ts, t, e, h1, h2, h3, h4, h5, h6⟩
      · left; intro t ht
        rcases List.mem_append.1 ht with ht | ht
        · exact hp t ht
        · exact h t ht
      · right
        refine ⟨pre ++ ts, t, e, by rw [h1, List.append_assoc], ?_, h3, h4, h5, errAt_cons hl h6⟩
        intro t ht
        rcases List.mem_append.1 ht with ht | ht
        · exact hp t ht
        · exact h2 t ht
    cases i with
    | space c => exact step [] _ _ _ _ _ (by simp) hw.2.2 rfl (by rw [specToks]; rfl)
    | word us => exact step [⟨textOf us, wordLine line us, false, none⟩] _ _ _ _ _ (by simp) hw.2.2.2 rfl (by rw [specToks]; rfl)
    | quoted q us closed =>
      refine step (if closed = true ∨ quotedValue q us ≠ [] then [(⟨quotedValue q us, line, true, none⟩ : Tok)] else [])
        _ _ _ _ _ ?_ hw.2.2.2 (by rw [nls_quoted hw.1]) (by rw [specToks])
      split <;> simp
    | comment us e =>
      exact step [⟨'#' :: textOf us, line, false, none⟩] _ _ _ _ _ (by simp) hw.2.2
        (by rw [nls_comment (fun u hu => (hw.1 u hu).2)]) (by rw [specToks]; rfl)
    | special c =>
      by_cases h1 : dup = true ∧ c ≠ '}'
      · right
        refine ⟨[], _, _, by rw [specToks]; simp only [if_pos h1]; rfl, by simp, rfl, rfl, rfl, .inr ⟨[], c, rest, rfl, ?_⟩⟩
        simp [unlex, nls_nil]
      · by_cases h2 : c = '}' ∧ depth = 0
        · right
          refine ⟨[], _, _, by rw [specToks]; simp only [if_neg h1, if_pos h2]; rfl, by simp, rfl, rfl, rfl,
            .inr ⟨[], c, rest, rfl, ?_⟩⟩
          rw [h2.1]; simp [unlex, nls_nil]
        · refine step [_] line _ _ _ _ ?_ hw.2 (by rw [nls_special hw.1, Int.add_zero])
            (by rw [specToks]; simp only [if_neg h1, if_neg h2]; rfl)
          simp

/-- Shapes of tokens. -/
theorem specToks_shape {items : List Item} (hw : WF items) : ∀ {line start depth dup g},
    ∀ t ∈ specToks line start depth dup g items, t.error = none → t.quoted = false →
      (∃ c, isSpecialChar c = true ∧ t.value = [c]) ∨ (∃ r, t.value = '#' :: r ∧ '\n' ∉ r) ∨ IsWord t.value := by
  induction items with
  | nil =>
    intro line start depth dup g t ht he
    simp only [specToks] at ht
    split at ht
    · simp at ht; rw [ht] at he; cases he
    · simp at ht
  | cons i rest ih =>
    intro line start depth dup g t ht he hq
    cases i with
    | space c => rw [specToks] at ht; exact ih hw.2.2 t ht he hq
    | word us =>
      rw [specToks] at ht
      rcases List.mem_cons.1 ht with rfl | ht
      · obtain ⟨p, hp, _⟩ := hw.2.2.1
        exact .inr (.inr ⟨us, rfl, hw.1, hw.2.1, p, hp⟩)
      · exact ih hw.2.2.2 t ht he hq
    | quoted q us closed =>
      rw [specToks] at ht
      rcases List.mem_append.1 ht with ht | ht
      · split at ht
        · simp at ht; rw [ht] at hq; cases hq
        · simp at ht
      · exact ih hw.2.2.2 t ht he hq
    | comment us e =>
      rw [specToks] at ht
      rcases List.mem_cons.1 ht with rfl | ht
      · exact .inr (.inl ⟨textOf us, rfl, no_nl_comment (fun u hu => (hw.1 u hu).2)⟩)
      · exact ih hw.2.2 t ht he hq
    | special c =>
      rw [specToks] at ht
      split at ht
      · simp at ht; rw [ht] at he; cases he
      · split at ht
        · simp at ht; rw [ht] at he; cases he
        · rcases List.mem_cons.1 ht with rfl | ht
          · exact .inl ⟨c, hw.1, rfl⟩
          · exact ih hw.2 t ht he hq

/-- Every text: its items. -/
theorem lex_cover (s : Str) : ∃ items d, s.filter (· ≠ '\r') = unlex items ++ d ∧ WF items ∧ Dangling d ∧
    lex s = toksOf items := by
  have hcr : '\r' ∉ s.filter (· ≠ '\r') := by simp
  obtain ⟨items, d, e, w, hd⟩ := text_cover _ hcr
  refine ⟨items, d, e, w, hd, ?_⟩
  rw [← lex_items w hd, ← e, lex_eq_loop, lex_eq_loop, loop_filter_cr]

theorem nls_filter (s : Str) : nls (s.filter (· ≠ '\r')) = nls s := by
  simp only [nls]
  rw [List.count_filter (by decide)]

theorem nls_dangling {d : Str} (h : Dangling d) : nls d = 0 := by
  rcases h with rfl | rfl <;> decide

end Verif
