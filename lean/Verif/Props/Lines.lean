import Verif.Spec.Lines
import Verif.Props.Lexer
/-!
# C05 for every text: the line of every token
-/
namespace Verif
open Spec

theorem specToks_tokenLines {items : List Item} (hw : WF items) : ∀ {line start depth dup g},
    ((specToks line start depth dup g items).filter (·.error = none)).map (·.line) <+: tokenLines line (if g then some start else none) items := by
  induction items with
  | nil =>
    intro line start depth dup g
    simp only [specToks]; split <;> simp
  | cons i rest ih =>
    intro line start depth dup g
    cases i with
    | space c =>
      simp only [specToks, tokenLines]
      simpa using ih hw.2.2 (g := false) (start := start)
    | word us =>
      simp only [specToks, tokenLines]
      simp only [decide_true, List.filter_cons_of_pos, List.map_cons, List.cons_prefix_cons, true_and]
      simpa using ih hw.2.2.2 (g := true) (start := wordLine line us)
    | quoted q us closed =>
      simp only [specToks, tokenLines, List.filter_append, List.map_append]
      rw [nls_quoted hw.1]
      by_cases hc : closed = true ∨ quotedValue q us ≠ []
      · rw [if_pos hc]
        simp only [decide_true, List.filter_cons_of_pos, List.filter_nil, List.map_cons, List.map_nil,
          List.singleton_append, List.cons_prefix_cons, true_and]
        simpa using ih hw.2.2.2 (g := false) (start := line)
      · rw [if_neg hc]
        have : rest = [] := hw.2.2.1 (by cases closed <;> simp_all)
        subst this
        simp only [specToks]
        split <;> simp
    | comment us e =>
      have h1 : nls (Item.text (.comment us e)) = nls e.text := by
        have : Item.text (.comment us e) = ['#'] ++ textOf us ++ e.text := by simp [Item.text]
        have h2 : nls (textOf us) = 0 := by
          simp only [nls, Int.natCast_eq_zero, List.count_eq_zero]
          exact no_nl_comment fun u hu => (hw.1 u hu).2
        have h3 : nls ['#'] = 0 := by decide
        rw [this, nls_append, nls_append, h2, h3]; simp
      simp only [specToks, tokenLines, h1]
      simp only [decide_true, List.filter_cons_of_pos, List.map_cons, List.cons_prefix_cons, true_and]
      simpa using ih hw.2.2 (g := false) (start := line)
    | special c =>
      simp only [specToks, tokenLines]
      have hst : (if g = true then some start else none).getD line = if g = true then start else line := by
        split <;> rfl
      rw [hst]
      split
      · simp
      · split
        · simp
        · simp only [decide_true, List.filter_cons_of_pos, List.map_cons, List.cons_prefix_cons, true_and]
          simpa using ih hw.2 (g := false)

/-- C05 (position), for every text: the tokens without error have exactly the lines of `tokenLines`.  The lists are compared as a prefix because an error ends the
stream and an empty unterminated quoted string at the end of the text produces no token. -/
theorem C05_lines {items : List Item} (hw : WF items) {d : Str} (hd : Dangling d) :
    ((lex (unlex items ++ d)).filter (·.error = none)).map (·.line) <+: tokenLines 1 none items := by
  rw [lex_items hw hd]
  exact specToks_tokenLines hw

theorem tokenLines_eq_iff {items : List Item} (hw : WF items) : ∀ {line : Int} {prev : Option Int},
    tokenLines line prev items = itemLines line items ↔
      LinesPlain items ∧ (∀ l, prev = some l → l ≠ line → ∀ c b, items ≠ .special c :: b) := by
  have cons : ∀ {i : Item} {rest : List Item}, (∀ us, i ≠ .word us) → (LinesPlain (i :: rest) ↔ LinesPlain rest) := by
    intro i rest hi
    constructor
    · intro h a us b e
      exact h (i :: a) us b (by rw [e]; rfl)
    · intro h a us b e
      cases a with
      | nil => cases e; exact absurd rfl (hi us)
      | cons x a => cases e; exact h a us b rfl
  induction items with
  | nil =>
    intro line prev
    simp only [tokenLines, itemLines, true_iff]
    exact ⟨fun a us b e => by simp at e, fun _ _ _ c b e => by cases e⟩
  | cons i rest ih =>
    intro line prev
    cases i with
    | space c =>
      simp only [tokenLines, itemLines]
      rw [ih hw.2.2, cons (by simp)]
      simp
    | word us =>
      have hh : wordLine line us = if us.head? = some (.esc '\n') then line + 1 else line := by
        unfold wordLine
        split
        · simp
        · rename_i h
          rw [if_neg]
          intro e
          cases us with
          | nil => cases e
          | cons y ys => simp at e; subst e; exact h _ rfl
      simp only [tokenLines, itemLines, hh, List.cons.injEq, Item.text]
      rw [ih hw.2.2.2]
      have hsplit : LinesPlain (.word us :: rest) ↔ (us.head? ≠ some (.esc '\n') ∧ ('\n' ∈ textOf us → ∀ c b', rest ≠ .special c :: b')) ∧ LinesPlain rest := by
        constructor
        · intro h
          exact ⟨h [] us rest rfl, fun a us' b e => h (.word us :: a) us' b (by rw [e]; rfl)⟩
        · rintro ⟨h1, h2⟩ a us' b e
          cases a with
          | nil => cases e; exact h1
          | cons x a => cases e; exact h2 a us' b rfl
      rw [hsplit]
      by_cases he : us.head? = some (.esc '\n')
      · rw [if_pos he]
        constructor
        · rintro ⟨h, -⟩; omega
        · rintro ⟨⟨⟨h, -⟩, -⟩, -⟩; exact absurd he h
      · rw [if_neg he]
        have hn : (line ≠ line + nls (textOf us)) ↔ '\n' ∈ textOf us := by
          unfold nls
          rw [← List.count_pos_iff]
          omega
        simp only [true_and, Option.some.injEq, forall_eq', hn, ne_eq, he, not_false_eq_true, reduceCtorEq, implies_true, and_true]
        exact ⟨fun h => ⟨⟨h.2, h.1⟩, fun _ _ _ _ _ e => by cases e⟩, fun h => ⟨h.1.2, h.1.1⟩⟩
    | quoted q us closed =>
      simp only [tokenLines, itemLines, List.cons.injEq, true_and]
      rw [ih hw.2.2.2, cons (by simp)]
      simp
    | comment us e =>
      simp only [tokenLines, itemLines, List.cons.injEq, true_and]
      rw [ih hw.2.2, cons (by simp)]
      simp
    | special c =>
      have h1 : nls (Item.text (.special c)) = 0 := by
        simp only [Item.text]; rcases specialChar_cases hw.1 with rfl | rfl | rfl <;> decide
      simp only [tokenLines, itemLines, List.cons.injEq, h1, Int.add_zero]
      rw [ih hw.2, cons (by simp)]
      cases prev with
      | none => simp
      | some l =>
        simp only [Option.getD_some, reduceCtorEq, false_implies, implies_true, and_true, Option.some.injEq, forall_eq']
        constructor
        · rintro ⟨h, h2⟩; exact ⟨h2, fun hne => absurd h hne⟩
        · rintro ⟨h, h2⟩
          refine ⟨?_, h⟩
          by_contra hne
          exact h2 hne c rest rfl

/-- C05: the lines reported are those where the items start exactly if no word starts with an escaped line feed and no special character comes right after a word with a line feed
in it. -/
theorem C05_lines_iff {items : List Item} (hw : WF items) : tokenLines 1 none items = itemLines 1 items ↔ LinesPlain items := by
  rw [tokenLines_eq_iff hw]
  simp

/-- C05 (position) for texts in which words may have line feeds, if no special character comes right after one and none starts with one. -/
theorem C05_lines_plain {items : List Item} (hw : WF items) {d : Str} (hd : Dangling d) (hp : LinesPlain items) :
    ((lex (unlex items ++ d)).filter (·.error = none)).map (·.line) <+: itemLines 1 items := by
  rw [← (C05_lines_iff hw).mpr hp]
  exact C05_lines hw hd

/-- A text with all cases: a word with a line feed before a blank and before a semicolon, a word that starts with a line feed. -/
def exLineItems : List Item :=
  [.word [.plain 'a', .esc '\n', .plain 'b'], .space ' ', .word [.esc '\n', .plain 'c'], .special ';', .space '\n', .word [.plain 'd'], .special ';']

theorem exLineItems_wf : WF exLineItems := by
  refine ⟨by simp [U.wf], ⟨_, _, rfl, by simp [startsWord]; decide⟩, ⟨.out false, by decide, by simp [wordEnd]⟩, by decide, by decide, by simp [U.wf],
    ⟨_, _, rfl, by simp [startsWord]⟩, ⟨.out false, by decide, by simp [wordEnd]⟩, by decide, by decide, by decide, by simp [U.wf],
    ⟨_, _, rfl, by simp [startsWord]; decide⟩, ⟨.out false, by decide, by simp [wordEnd]⟩, by decide, trivial⟩

example : ((lex c!"a\\\nb \\\nc;\nd;").filter (·.error = none)).map (·.line) <+: [1, 3, 3, 4, 4] := C05_lines (d := []) exLineItems_wf (.inl rfl)

example : ¬ LinesPlain exLineItems := by
  rw [← C05_lines_iff exLineItems_wf]; decide

end Verif
