import Verif.Proofs.LexProps
/-!
# C03-C08: the lexer without external lexers

The specification is `Verif/Spec/Items.lean`.
-/
namespace Verif
open Spec

/-! ## C03 -/

/-- C03 (first half).  The tokens of a text made of well-formed items are exactly the tokens of the items. -/
theorem C03_tokens_of_items {items : List Item} (hw : WF items) {d : Str} (hd : Dangling d) :
    lex (unlex items ++ d) = toksOf items := lex_items hw hd

/-- C03 (second half).  Every text is (carriage returns aside) made of well-formed items, so the first half determines the
tokens of every input. -/
theorem C03_every_text_is_items (s : Str) :
    ∃ items d, s.filter (· ≠ '\r') = unlex items ++ d ∧ WF items ∧ Dangling d ∧ lex s = toksOf items :=
  lex_cover s

/-- The items of `a "b;c" # d⏎{${x}y;}`. -/
def exampleItems : List Item :=
  [.word [.plain 'a'], .space ' ', .quoted '"' [.plain 'b', .plain ';', .esc '"', .plain 'c'] true, .space ' ',
   .comment [.plain ' ', .plain 'd'] .nl, .special '{',
   .word [.plain '$', .plain '{', .plain 'x', .plain '}', .plain 'y'], .special ';', .special '}']

theorem exampleItems_wf : WF exampleItems := by
  refine ⟨?_, ⟨_, _, rfl, ?_⟩, ⟨.out false, ?_, ?_⟩, ?_⟩
  · simp [U.wf]
  · simp [startsWord]; decide
  · decide
  · trivial
  refine ⟨by decide, by decide, by simp, by simp [U.wf], by simp, ?_⟩
  refine ⟨by decide, by decide, by simp [U.wf, U.char], by simp, by decide, ?_⟩
  refine ⟨by simp [U.wf], ⟨_, _, rfl, by simp [startsWord]; decide⟩, ⟨.out false, by decide, by simp [wordEnd]⟩, ?_⟩
  exact ⟨by decide, by decide, trivial⟩

/-- A concrete instance of C03. -/
example : lex c!"a \"b;\\\"c\" # d\n{${x}y;}" = [
    ⟨c!"a", 1, false, none⟩, ⟨c!"b;\"c", 1, true, none⟩, ⟨c!"# d", 1, false, none⟩, ⟨c!"{", 2, false, none⟩,
    ⟨c!"${x}y", 2, false, none⟩, ⟨c!";", 2, false, none⟩, ⟨c!"}", 2, false, none⟩] :=
  (C03_tokens_of_items (d := []) exampleItems_wf (.inl rfl)).trans (by decide)

/-! ## C04 -/

/-- C04.  Carriage returns do not matter. -/
theorem C04_carriage_returns (s : Str) : lex s = lex (s.filter (· ≠ '\r')) := by
  rw [lex_eq_loop, lex_eq_loop, loop_filter_cr]

/-- C04, as a statement about two texts: texts that differ only in carriage returns have the same tokens. -/
theorem C04_same_text (s t : Str) (h : s.filter (· ≠ '\r') = t.filter (· ≠ '\r')) : lex s = lex t := by
  rw [C04_carriage_returns s, C04_carriage_returns t, h]

example : lex c!"a\r\n{\r\n b\\\r\n;}" = lex c!"a\n{\n b\\\n;}" := C04_same_text _ _ (by decide)

/-! ## C05 -/

/-- C05 (order and range).  Along the stream line numbers never decrease, and they lie between 1 and one plus the number of
line feeds of the text. -/
theorem C05_lines_ordered (s : Str) :
    (lex s).Pairwise (fun a b => a.line ≤ b.line) ∧ ∀ t ∈ lex s, 1 ≤ t.line ∧ t.line ≤ 1 + nls s := by
  obtain ⟨items, d, e, w, hd, h⟩ := lex_cover s
  have := specToks_lines w (line := 1) (start := 1) (depth := 0) (dup := false) (g := false) (Int.le_refl _)
  rw [h]
  refine ⟨this.1, fun t ht => ?_⟩
  have h2 := this.2 t ht
  have h3 : nls s = nls (unlex items) := by
    rw [← nls_filter, e, nls_append, nls_dangling hd]; simp
  rw [h3]; exact h2

/-- C05 (position), partial: the lines of the tokens without error are the lines where the items of the text start, provided
that no word of the text contains a line feed (escaped, or inside `${ }`).  Missing: for texts with such
words the claim is false, see `C05_false`; error tokens carry the line of the latest token
start (see `C07_errors` for the line in the error itself).  The lists are compared as a prefix because an error ends the stream
and an empty unterminated quoted string at the end of the text produces no token. -/
theorem C05_lines_partial {items : List Item} (hw : WF items) {d : Str} (hd : Dangling d)
    (hm : ∀ us, Item.word us ∈ items → '\n' ∉ textOf us) :
    ((lex (unlex items ++ d)).filter (·.error = none)).map (·.line) <+: itemLines 1 items := by
  rw [lex_items hw hd]
  exact specToks_itemLines hw hm (by simp)

/-- C05 fails in general: in `a\⏎b;` the `;` is on the second line but is reported on the first. -/
theorem C05_false : ∃ items : List Item, WF items ∧ unlex items = c!"a\\\nb;" ∧
    ¬ ((lex (unlex items)).filter (·.error = none)).map (·.line) <+: itemLines 1 items := by
  refine ⟨[.word [.plain 'a', .esc '\n', .plain 'b'], .special ';'], ?_, by decide, by decide⟩
  refine ⟨by simp [U.wf], ⟨_, _, rfl, by simp [startsWord]; decide⟩, ⟨.out false, by decide, by simp [wordEnd]⟩, ?_⟩
  exact ⟨by decide, trivial⟩

/-- The hypotheses of `C05_lines_partial` are met by a text with several lines. -/
example : ((lex c!"a \"b;\\\"c\" # d\n{${x}y;}").filter (·.error = none)).map (·.line) <+: [1, 1, 1, 2, 2, 2, 2] :=
  C05_lines_partial (d := []) exampleItems_wf (.inl rfl) (by
    intro us h
    simp only [exampleItems, List.mem_cons, List.not_mem_nil, Item.word.injEq, reduceCtorEq, or_false, false_or] at h
    rcases h with rfl | rfl <;> decide)

/-! ## C06 -/

/-- C06.  The lexer reports no error exactly if the braces of the text are balanced and no `;` or `{` follows another
special character. -/
theorem C06_no_error_iff {items : List Item} (hw : WF items) {d : Str} (hd : Dangling d) :
    (∀ t ∈ lex (unlex items ++ d), t.error = none) ↔ NoClash false items ∧ Balanced (specials items) := by
  rw [lex_items hw hd, ← balFrom_zero]
  exact specToks_noerr hw

/-- C06, in terms of the tokens: without error, the unquoted brace tokens are balanced. -/
theorem C06_tokens_balanced (s : Str) (h : ∀ t ∈ lex s, t.error = none) :
    Balanced ((lex s).filterMap fun t =>
      if t.quoted = false ∧ t.value = ['{'] then some '{'
      else if t.quoted = false ∧ t.value = ['}'] then some '}' else none) := by
  obtain ⟨items, d, e, w, hd, hl⟩ := lex_cover s
  have h1 := (specToks_noerr w).1 (hl ▸ h)
  rw [balFrom_zero] at h1
  have h2 := specToks_braces w (hl ▸ h)
  have key : ((lex s).filterMap fun t =>
      if t.quoted = false ∧ t.value = ['{'] then some '{'
      else if t.quoted = false ∧ t.value = ['}'] then some '}' else none) =
      (specials items).filter (fun c => c = '{' ∨ c = '}') := by
    rw [← h2, show specToks 1 1 0 false false items = lex s from hl.symm]
    clear h2 hl h1
    generalize lex s = l at h
    induction l with
    | nil => rfl
    | cons t l ih =>
      obtain ⟨v, ln, q, er⟩ := t
      have her : er = none := h _ (List.mem_cons_self ..)
      subst her
      have ih' := ih (fun t ht => h t (List.mem_cons_of_mem _ ht))
      rw [List.filterMap_cons, List.filterMap_cons, ih']
      cases q with
      | true => simp [braceOf]
      | false =>
        match v with
        | [] => simp [braceOf]
        | [c] =>
          by_cases h1 : c = '{'
          · subst h1; simp [braceOf, isSpecialChar]
          · by_cases h2 : c = '}'
            · subst h2; simp [braceOf, isSpecialChar]
            · by_cases h3 : c = ';'
              · subst h3; simp [braceOf, isSpecialChar]
              · simp [braceOf, isSpecialChar, h1, h2, h3]
        | c :: c2 :: r => simp [braceOf]
  rw [key]
  obtain ⟨b1, b2⟩ := h1.2
  have cnt : ∀ (l : List Char) (c : Char), (c = '{' ∨ c = '}') →
      (l.filter (fun c => decide (c = '{' ∨ c = '}'))).count c = l.count c := by
    intro l c hc; exact List.count_filter (by simpa using hc)
  constructor
  · intro p hp
    rw [List.prefix_filter_iff] at hp
    obtain ⟨l', hp, rfl⟩ := hp
    rw [cnt _ _ (.inl rfl), cnt _ _ (.inr rfl)]
    exact b1 _ hp
  · rw [cnt _ _ (.inl rfl), cnt _ _ (.inr rfl)]; exact b2

/-- A text without error. -/
example : ∀ t ∈ lex c!"a { b \"}\"; c { } }", t.error = none := by decide
/-- Texts with an error: one for each reason. -/
example : ¬ ∀ t ∈ lex c!"a { b;", t.error = none := by decide
example : ¬ ∀ t ∈ lex c!"a; }", t.error = none := by decide
example : ¬ ∀ t ∈ lex c!"a { # x\n;}", t.error = none := by decide
/-- The equivalence applied to the example items. -/
example : NoClash false exampleItems ∧ Balanced (specials exampleItems) :=
  (C06_no_error_iff (d := []) exampleItems_wf (.inl rfl)).1 (by decide)

/-! ## C07 -/

/-- C07.  Either no token carries an error, or exactly the last one does; its value is empty and the error names the lexer's
pseudo file and the line of the offending character (or of the end of the text). -/
theorem C07_errors (s : Str) :
    (∀ t ∈ lex s, t.error = none) ∨
    ∃ ts t e, lex s = ts ++ [t] ∧ (∀ t ∈ ts, t.error = none) ∧ t.error = some e ∧ t.value = [] ∧ t.quoted = false ∧
      (e = err c!"unexpected end of file, expecting \"}\"" (1 + nls s) ∨
       ∃ a c b, s = a ++ c :: b ∧ (c = '{' ∨ c = '}' ∨ c = ';') ∧
         e = err (c!"unexpected \"" ++ [c] ++ c!"\"") (1 + nls a)) := by
  obtain ⟨items, d, e, w, hd, h⟩ := lex_cover s
  rw [h]
  rcases specToks_err w (line := 1) (start := 1) (depth := 0) (dup := false) (g := false) with h1 | ⟨ts, t, er, h1, h2, h3, h4, h5, h6⟩
  · exact .inl h1
  · refine .inr ⟨ts, t, er, h1, h2, h3, h4, h5, ?_⟩
    rcases h6 with h6 | ⟨pre, c, post, h6, h7⟩
    · left
      have : nls s = nls (unlex items) := by
        rw [← nls_filter, e, nls_append, nls_dangling hd]; simp
      rw [this]; exact h6
    · right
      subst h6
      have hc : isSpecialChar c = true := by
        clear e h h1 h7
        induction pre with
        | nil => exact w.1
        | cons i pre ih =>
          apply ih
          cases i with
          | space _ => exact w.2.2
          | special _ => exact w.2
          | word _ => exact w.2.2.2
          | quoted _ _ _ => exact w.2.2.2
          | comment _ _ => exact w.2.2
      have e' : s.filter (· ≠ '\r') = unlex pre ++ c :: (unlex post ++ d) := by
        rw [e]; simp [unlex, Item.text]
      rw [List.filter_eq_append_iff] at e'
      obtain ⟨s1, s2, rfl, e1, e2⟩ := e'
      rw [List.filter_eq_cons_iff] at e2
      obtain ⟨s3, s4, rfl, e3, e4, e5⟩ := e2
      refine ⟨s1 ++ s3, c, s4, by simp, specialChar_cases hc, ?_⟩
      rw [h7, ← e1, nls_filter, nls_append]
      have : nls s3 = 0 := by
        rw [← nls_filter]
        have : s3.filter (fun x => decide (x ≠ '\r')) = [] := by
          rw [List.filter_eq_nil_iff]; exact e3
        rw [this]; rfl
      rw [this, Int.add_zero]

/-- The second alternative of C07 occurs, for each kind of error. -/
example : lex c!"a\n{ b;" = [⟨c!"a", 1, false, none⟩, ⟨c!"{", 2, false, none⟩, ⟨c!"b", 2, false, none⟩,
    ⟨c!";", 2, false, none⟩, ⟨[], 2, false, some (err c!"unexpected end of file, expecting \"}\"" 2)⟩] := by decide
example : lex c!"a;\n}b" = [⟨c!"a", 1, false, none⟩, ⟨c!";", 1, false, none⟩,
    ⟨[], 2, false, some (err c!"unexpected \"}\"" 2)⟩] := by decide

/-! ## C08 -/

/-- C08.  An unquoted token (without error) is a special character, a comment without line feed, or a word. -/
theorem C08_token_shapes (s : Str) : ∀ t ∈ lex s, t.error = none → t.quoted = false →
    (∃ c, isSpecialChar c = true ∧ t.value = [c]) ∨ (∃ r, t.value = '#' :: r ∧ '\n' ∉ r) ∨ IsWord t.value := by
  obtain ⟨items, d, e, w, hd, h⟩ := lex_cover s
  rw [h]
  exact specToks_shape w

theorem isWord_ne_nil {v : Str} (h : IsWord v) : v ≠ [] := by
  obtain ⟨us, rfl, _, ⟨u, us', rfl, _⟩, _⟩ := h
  rw [textOf_cons]; simp [text_ne_nil]

/-- C08.  No unquoted token is empty (error tokens aside). -/
theorem C08_not_empty (s : Str) : ∀ t ∈ lex s, t.error = none → t.quoted = false → t.value ≠ [] := by
  intro t ht he hq
  rcases C08_token_shapes s t ht he hq with ⟨c, _, h⟩ | ⟨r, h, _⟩ | h
  · simp [h]
  · simp [h]
  · exact isWord_ne_nil h

theorem run_out_plain {us : List U} (h0 : ∀ u ∈ us, ∀ c, u ≠ .esc c) (h1 : U.plain '$' ∉ us) {p : WordPos}
    (hp : WordPos.run (.out false) us = some p) :
    ∀ u ∈ us, ∀ c, u = .plain c → isSpaceRune c = false ∧ isSpecialChar c = false := by
  induction us with
  | nil => simp
  | cons u us ih =>
    simp only [WordPos.run, Option.bind_eq_some_iff] at hp
    obtain ⟨p1, hp1, hp2⟩ := hp
    cases u with
    | esc c => exact absurd rfl (h0 (.esc c) (by simp) c)
    | plain c =>
      have hd : c ≠ '$' := by rintro rfl; simp at h1
      simp only [WordPos.next, Bool.false_eq_true, and_false, if_false] at hp1
      by_cases hs : isSpaceRune c = true
      · simp [hs] at hp1
      · by_cases hsp : isSpecialChar c = true
        · simp [hs, hsp] at hp1
        · simp [hs, hsp, hd] at hp1
          subst hp1
          have := ih (fun u hu => h0 u (by simp [hu])) (fun h => h1 (by simp [h])) hp2
          intro u hu c' hc'
          rcases List.mem_cons.1 hu with rfl | hu
          · cases hc'; simp_all
          · exact this u hu c' hc'

/-- C08.  An unquoted token without backslash and without `$` that is neither a comment nor a special character contains no
whitespace, no brace and no semicolon. -/
theorem C08_plain_word (s : Str) : ∀ t ∈ lex s, t.error = none → t.quoted = false → '\\' ∉ t.value → '$' ∉ t.value →
    (∃ c, isSpecialChar c = true ∧ t.value = [c]) ∨ (∃ r, t.value = '#' :: r) ∨
    ∀ c ∈ t.value, isSpaceRune c = false ∧ c ≠ '{' ∧ c ≠ '}' ∧ c ≠ ';' := by
  intro t ht he hq hb hd
  rcases C08_token_shapes s t ht he hq with h | ⟨r, h, _⟩ | ⟨us, e, _, _, p, hp⟩
  · exact .inl h
  · exact .inr (.inl ⟨r, h⟩)
  · right; right
    rw [← e] at hb hd ⊢
    have h0 : ∀ u ∈ us, ∀ c, u ≠ .esc c := by
      rintro u hu c rfl
      exact hb (List.mem_flatMap.2 ⟨_, hu, by simp [U.text]⟩)
    have h1 : U.plain '$' ∉ us := fun h => hd (List.mem_flatMap.2 ⟨_, h, by simp [U.text]⟩)
    intro c hc
    obtain ⟨u, hu, hcu⟩ := List.mem_flatMap.1 hc
    cases u with
    | esc c' => exact absurd rfl (h0 _ hu c')
    | plain c' =>
      simp [U.text] at hcu
      subst hcu
      have := run_out_plain h0 h1 hp _ hu c rfl
      refine ⟨this.1, ?_⟩
      have h2 := this.2
      simpa [isSpecialChar, and_assoc] using h2

/-- Tokens of each shape occur. -/
example : lex c!"#x\na\\;b {}" = [⟨c!"#x", 1, false, none⟩, ⟨c!"a\\;b", 2, false, none⟩, ⟨c!"{", 2, false, none⟩, ⟨c!"}", 2, false, none⟩] := by decide

end Verif
