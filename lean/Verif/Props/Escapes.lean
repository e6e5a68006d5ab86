import Verif.Spec.Escapes
import Verif.Props.Enquote
import Mathlib.Data.List.Induction
/-!
# C90: what quoted arguments show, and which arguments are written alike
-/
namespace Verif
open Spec

/-! ## Escapes -/

theorem hexValue_append (a : Str) (d : Char) : hexValue (a ++ [d]) = 16 * hexValue a + c!"0123456789abcdef".idxOf d := by
  unfold hexValue
  rw [List.foldl_append]
  rfl

theorem hexDigit_value : ∀ n < 16, hexDigit n ∈ c!"0123456789abcdef" ∧ c!"0123456789abcdef".idxOf (hexDigit n) = n := by decide

theorem hexDigits_value (k : Nat) : ∀ n, n < 16 ^ k → (hexDigits k n).length = k ∧ (∀ d ∈ hexDigits k n, d ∈ c!"0123456789abcdef") ∧ hexValue (hexDigits k n) = n := by
  induction k with
  | zero => intro n h; exact ⟨rfl, by simp [hexDigits], by simp at h; subst h; rfl⟩
  | succ k ih =>
    intro n h
    obtain ⟨h1, h2, h3⟩ := ih (n / 16) (by rw [Nat.div_lt_iff_lt_mul (by decide)]; rwa [Nat.pow_succ] at h)
    obtain ⟨g1, g2⟩ := hexDigit_value (n % 16) (Nat.mod_lt _ (by decide))
    rw [hexDigits]
    refine ⟨by simp [h1], ?_, ?_⟩
    · intro d hd
      rcases List.mem_append.mp hd with hd | hd
      · exact h2 d hd
      · rw [List.mem_singleton.mp hd]; exact g1
    · rw [hexValue_append, h3, g2]
      exact Nat.div_add_mod n 16

theorem hexDigits_of {k : Nat} {c : Char} (h : c.toNat < 16 ^ k) : DigitsOf k c (hexDigits k c.toNat) := by
  obtain ⟨h1, h2, h3⟩ := hexDigits_value k c.toNat h
  exact ⟨h1, h2, h3⟩

theorem char_lt (c : Char) : c.toNat < 16 ^ 8 := by
  have := c.val.toNat_lt
  exact this

theorem escapeRune_escape {isPrint : Char → Bool} {c : Char} (h1 : c ≠ '\\') (h2 : c ≠ '"') (h3 : isPrint c = false) : EscapeOf c (escapeRune isPrint c) := by
  unfold escapeRune
  rw [if_neg (by simp [h1, h2]), if_neg (by simp [h3])]
  by_cases e1 : c = '\x07'
  · rw [if_pos (by simpa using e1)]; subst e1; exact .letter (l := 'a') (by decide)
  rw [if_neg (by simpa using e1)]
  by_cases e2 : c = '\x08'
  · rw [if_pos (by simpa using e2)]; subst e2; exact .letter (l := 'b') (by decide)
  rw [if_neg (by simpa using e2)]
  by_cases e3 : c = '\x0c'
  · rw [if_pos (by simpa using e3)]; subst e3; exact .letter (l := 'f') (by decide)
  rw [if_neg (by simpa using e3)]
  by_cases e4 : c = '\n'
  · rw [if_pos (by simpa using e4)]; subst e4; exact .letter (l := 'n') (by decide)
  rw [if_neg (by simpa using e4)]
  by_cases e5 : c = '\r'
  · rw [if_pos (by simpa using e5)]; subst e5; exact .letter (l := 'r') (by decide)
  rw [if_neg (by simpa using e5)]
  by_cases e6 : c = '\t'
  · rw [if_pos (by simpa using e6)]; subst e6; exact .letter (l := 't') (by decide)
  rw [if_neg (by simpa using e6)]
  by_cases e7 : c = '\x0b'
  · rw [if_pos (by simpa using e7)]; subst e7; exact .letter (l := 'v') (by decide)
  rw [if_neg (by simpa using e7)]
  have hl : ∀ l, (c, l) ∉ letterEscapes := by
    intro l
    simp [letterEscapes, e1, e2, e3, e4, e5, e6, e7]
  by_cases e8 : c.toNat < 32 ∨ c.toNat = 127
  · rw [if_pos (by simpa using e8)]
    exact .two hl e8 (hexDigits_of (by rcases e8 with h | h <;> omega))
  rw [if_neg (by simpa using e8)]
  by_cases e9 : c.toNat < 65536
  · rw [if_pos e9]
    exact .four (by omega) e9 (hexDigits_of (by omega))
  · rw [if_neg e9]
    exact .eight (by omega) (hexDigits_of (char_lt c))

/-! ## Escapes of different characters differ -/

theorem hexValue_inj : ∀ {a b : Str}, a.length = b.length → (∀ d ∈ a, d ∈ c!"0123456789abcdef") → (∀ d ∈ b, d ∈ c!"0123456789abcdef") → hexValue a = hexValue b → a = b := by
  intro a
  induction a using List.reverseRecOn with
  | nil => intro b h _ _ _; exact (List.length_eq_zero_iff.mp h.symm).symm
  | append_singleton a d ih =>
    intro b h ha hb hv
    induction b using List.reverseRecOn with
    | nil => simp at h
    | append_singleton b e _ =>
      rw [hexValue_append, hexValue_append] at hv
      have hd : c!"0123456789abcdef".idxOf d < 16 := List.idxOf_lt_length_of_mem (ha d (by simp))
      have he : c!"0123456789abcdef".idxOf e < 16 := List.idxOf_lt_length_of_mem (hb e (by simp))
      have h1 : hexValue a = hexValue b := by omega
      have h2 : c!"0123456789abcdef".idxOf d = c!"0123456789abcdef".idxOf e := by omega
      rw [ih (by simpa using h) (fun x hx => ha x (by simp [hx])) (fun x hx => hb x (by simp [hx])) h1, (List.idxOf_inj (ha d (by simp))).mp h2]

theorem Spec.DigitsOf.unique {k : Nat} {c : Char} {a b : Str} (h : DigitsOf k c a) (h' : DigitsOf k c b) : a = b :=
  hexValue_inj (h.length.trans h'.length.symm) h.digits h'.digits (h.value.trans h'.value.symm)

theorem Spec.EscapeOf.unique {c : Char} {e e' : Str} (h : EscapeOf c e) (h' : EscapeOf c e') : e = e' := by
  have hlt : ∀ {l}, (c, l) ∈ letterEscapes → c.toNat < 32 := by
    intro l hl
    simp only [letterEscapes, List.mem_cons, Prod.mk.injEq, List.not_mem_nil, or_false] at hl
    rcases hl with ⟨rfl, _⟩ | ⟨rfl, _⟩ | ⟨rfl, _⟩ | ⟨rfl, _⟩ | ⟨rfl, _⟩ | ⟨rfl, _⟩ | ⟨rfl, _⟩ <;> decide
  cases h with
  | @letter l h =>
    have := hlt h
    cases h' with
    | @letter l' h' =>
      have : ∀ x ∈ letterEscapes, ∀ y ∈ letterEscapes, x.1 = y.1 → x.2 = y.2 := by decide
      rw [show l = l' from this _ h _ h' rfl]
    | two h' _ _ => exact absurd h (h' _)
    | four h' _ _ => omega
    | eight h' _ => omega
  | two h1 h2 h3 =>
    cases h' with
    | letter h' => exact absurd h' (h1 _)
    | two _ _ h' => rw [h3.unique h']
    | four h' _ _ => omega
    | eight h' _ => omega
  | four h1 h2 h3 =>
    cases h' with
    | letter h' => have := hlt h'; omega
    | two _ h' _ => omega
    | four _ _ h' => rw [h3.unique h']
    | eight h' _ => omega
  | eight h1 h2 =>
    cases h' with
    | letter h' => have := hlt h'; omega
    | two _ h' _ => omega
    | four _ h' _ => omega
    | eight _ h' => rw [h2.unique h']

/-! ## What is shown -/

/-- `ShownChar` as a function. -/
def showChar (isPrint : Char → Bool) (c : Char) : Str := if c = '\\' ∨ c = '"' ∨ isPrint c = true then [c] else escapeRune isPrint c

theorem shownChar_iff {isPrint : Char → Bool} {c : Char} {p : Str} : ShownChar isPrint c p ↔ p = showChar isPrint c := by
  unfold showChar
  constructor
  · rintro (h | ⟨h1, h2, h3, h4⟩)
    · rw [if_pos h]
    · rw [if_neg (by simp [h1, h2, h3])]
      exact h4.unique (escapeRune_escape h1 h2 h3)
  · rintro rfl
    by_cases h : c = '\\' ∨ c = '"' ∨ isPrint c = true
    · rw [if_pos h]; exact .plain h
    · rw [if_neg h]
      simp only [not_or, Bool.not_eq_true] at h
      exact .escaped h.1 h.2.1 h.2.2 (escapeRune_escape h.1 h.2.1 h.2.2)

theorem shown_iff {isPrint : Char → Bool} {s t : Str} : Shown isPrint s t ↔ t = s.flatMap (showChar isPrint) := by
  unfold Shown
  constructor
  · rintro ⟨ps, h, rfl⟩
    induction h with
    | nil => rfl
    | cons h _ ih => rw [List.flatten_cons, List.flatMap_cons, ih, shownChar_iff.mp h]
  · rintro rfl
    refine ⟨s.map (showChar isPrint), ?_, by rw [List.flatMap_def]⟩
    induction s with
    | nil => exact .nil
    | cons c s ih => exact .cons (shownChar_iff.mpr rfl) ih

theorem betweenQuotes_append (q : Char) (a b : Str) : betweenQuotes q (a ++ b) = betweenQuotes q a ++ betweenQuotes q b := by
  induction a with
  | nil => rfl
  | cons c a ih => simp only [List.cons_append, betweenQuotes, ih, List.append_assoc]

theorem betweenQuotes_plain {q : Char} {a : Str} (h : ∀ c ∈ a, c ≠ '\'') : betweenQuotes q a = a := by
  induction a with
  | nil => rfl
  | cons c a ih =>
    rw [betweenQuotes, if_neg (fun h' => h c (by simp) h'.1), ih (fun x hx => h x (by simp [hx]))]
    rfl

theorem EscShape.noQuote {e : Str} (h : EscShape e) : ∀ c ∈ e, c ≠ '\'' ∧ c ≠ '"' := by
  obtain ⟨x, xs, h1, h2, h3, h4⟩ := h
  intro c hc
  rcases List.mem_cons.mp hc with rfl | hc
  · exact ⟨by decide, by decide⟩
  · rcases List.mem_cons.mp hc with rfl | hc
    · exact ⟨h3, h2⟩
    · exact ⟨(h4 c hc).2.2, (h4 c hc).2.1⟩

theorem enc_eq (isPrint : Char → Bool) (q c : Char) : enc isPrint q c = betweenQuotes q (showChar isPrint c) := by
  unfold enc showChar
  by_cases h1 : c = '\\' ∨ c = '"'
  · rw [if_pos h1, if_pos (by rcases h1 with h | h <;> simp [h])]
    rcases h1 with rfl | rfl <;> simp [betweenQuotes]
  · rw [if_neg h1]
    simp only [not_or] at h1
    cases hp : isPrint c with
    | true => rw [if_pos rfl, if_pos (show c = '\\' ∨ c = '"' ∨ true = true from .inr (.inr rfl)), betweenQuotes, betweenQuotes, List.append_nil]; split
              · rename_i h; rw [h.1]
              · rfl
    | false =>
      rw [if_neg (by decide), if_neg (by simp [h1.1, h1.2])]
      rcases escapeRune_shape isPrint c hp with h | h
      · rw [betweenQuotes_plain fun x hx => (h.noQuote x hx).1]
      · exact absurd h (by simp [h1.1, h1.2])

theorem flatMap_enc (isPrint : Char → Bool) (q : Char) (s : Str) : s.flatMap (enc isPrint q) = betweenQuotes q (s.flatMap (showChar isPrint)) := by
  induction s with
  | nil => rfl
  | cons c s ih => rw [List.flatMap_cons, List.flatMap_cons, betweenQuotes_append, ih, enc_eq]

/-- C90.  A quoted argument is written between double quotes, or between single quotes if it contains a double quote.  Between them the argument is shown: characters that cannot be printed
are replaced by the escapes of Go with the code of the character, the others stand for themselves; within single quotes there is a backslash before each single quote. -/
theorem C90_text (isPrint : Char → Bool) {s : Str} (h : needsQuote s = true) :
    ∃ q t, Shown isPrint s t ∧ ('"' ∈ s ∧ q = '\'' ∨ '"' ∉ s ∧ q = '"') ∧ Enquote isPrint s = q :: betweenQuotes q t ++ [q] := by
  refine ⟨quoteFor s, s.flatMap (showChar isPrint), shown_iff.mpr rfl, ?_, ?_⟩
  · unfold quoteFor
    by_cases hq : '"' ∈ s
    · exact .inl ⟨hq, if_pos hq⟩
    · exact .inr ⟨hq, if_neg hq⟩
  · rw [C40_text, if_pos h, flatMap_enc]

/-! ## Arguments that are written alike -/

theorem betweenQuotes_head (q : Char) (t : Str) (h : q = '\'') : (betweenQuotes q t).head? ≠ some '\'' := by
  cases t with
  | nil => simp [betweenQuotes]
  | cons c t =>
    unfold betweenQuotes
    split
    · simp
    · rename_i h'
      simp
      exact fun h'' => h' ⟨h'', h⟩

theorem betweenQuotes_inj (q : Char) : ∀ a b, betweenQuotes q a = betweenQuotes q b → a = b := by
  intro a
  induction a with
  | nil =>
    intro b h
    cases b with
    | nil => rfl
    | cons c b => unfold betweenQuotes at h; split at h <;> simp at h
  | cons c a ih =>
    intro b h
    cases b with
    | nil => rw [betweenQuotes, betweenQuotes] at h; split at h <;> simp at h
    | cons d b =>
      rw [betweenQuotes, betweenQuotes] at h
      by_cases h1 : c = '\'' ∧ q = '\''
      · rw [if_pos h1] at h
        by_cases h2 : d = '\'' ∧ q = '\''
        · rw [if_pos h2] at h
          simp only [List.cons_append, List.nil_append, List.cons.injEq, true_and] at h
          rw [h.1, ih b h.2]
        · rw [if_neg h2] at h
          simp only [List.cons_append, List.nil_append, List.cons.injEq] at h
          have := betweenQuotes_head q b h1.2
          rw [← h.2, h1.1] at this
          exact absurd rfl this
      · rw [if_neg h1] at h
        by_cases h2 : d = '\'' ∧ q = '\''
        · rw [if_pos h2] at h
          simp only [List.cons_append, List.nil_append, List.cons.injEq] at h
          have := betweenQuotes_head q a h2.2
          rw [h.2, h2.1] at this
          exact absurd rfl this
        · rw [if_neg h2] at h
          simp only [List.cons_append, List.nil_append, List.cons.injEq] at h
          rw [h.1, ih b h.2]

theorem shown_quote (isPrint : Char → Bool) (s : Str) : '"' ∈ s.flatMap (showChar isPrint) ↔ '"' ∈ s := by
  induction s with
  | nil => simp
  | cons c s ih =>
    rw [List.flatMap_cons, List.mem_append, ih, List.mem_cons]
    refine or_congr ?_ Iff.rfl
    unfold showChar
    split
    · simp
    · rename_i h
      simp only [not_or, Bool.not_eq_true] at h
      rcases escapeRune_shape isPrint c h.2.2 with h' | h'
      · exact ⟨fun hm => absurd rfl (h'.noQuote _ hm).2, fun hm => absurd hm.symm h.2.1⟩
      · exact absurd h' (by simp [h.1, h.2.1])

/-- C90.  Two arguments are written alike if and only if they are equal, or both are quoted and are shown alike: they differ only in that one has a character that cannot be printed
where the other has the text of its escape. -/
theorem C90_alike_iff (isPrint : Char → Bool) (s s' : Str) :
    Enquote isPrint s = Enquote isPrint s' ↔ s = s' ∨ needsQuote s = true ∧ needsQuote s' = true ∧ ∃ t, Shown isPrint s t ∧ Shown isPrint s' t := by
  have hq : ∀ s : Str, quoteFor s = '"' ∨ quoteFor s = '\'' := by intro s; unfold quoteFor; split <;> simp
  have hun : ∀ s : Str, needsQuote s = false → s.head? ≠ some '"' ∧ s.head? ≠ some '\'' := by
    intro s h
    obtain ⟨c, cs, rfl, hc, -⟩ := needsQuote_false h
    simp [hc.2.2.2.2.1, hc.2.2.2.2.2]
  constructor
  · intro h
    rw [C40_text, C40_text] at h
    cases h1 : needsQuote s with
    | false =>
      rw [h1] at h
      cases h2 : needsQuote s' with
      | false => rw [h2] at h; exact .inl h
      | true =>
        rw [h2] at h
        simp only [Bool.false_eq_true, if_false, if_true] at h
        have := hun s h1
        rw [h] at this
        rcases hq s' with e | e <;> rw [e] at this <;> simp at this
    | true =>
      rw [h1] at h
      cases h2 : needsQuote s' with
      | false =>
        rw [h2] at h
        simp only [Bool.false_eq_true, if_false, if_true] at h
        have := hun s' h2
        rw [← h] at this
        rcases hq s with e | e <;> rw [e] at this <;> simp at this
      | true =>
        rw [h2] at h
        simp only [if_true, List.cons_append, List.cons.injEq] at h
        obtain ⟨e, h⟩ := h
        rw [e] at h
        have := List.append_cancel_right h
        rw [flatMap_enc, flatMap_enc] at this
        have := betweenQuotes_inj _ _ _ this
        exact .inr ⟨rfl, rfl, _, shown_iff.mpr rfl, shown_iff.mpr this⟩
  · rintro (rfl | ⟨h1, h2, t, h3, h4⟩)
    · rfl
    · have e3 := shown_iff.mp h3
      have e4 := shown_iff.mp h4
      have e : quoteFor s = quoteFor s' := by
        unfold quoteFor
        have h3 := shown_quote isPrint s
        have h4 := shown_quote isPrint s'
        rw [← e3] at h3
        rw [← e4] at h4
        simp only [← h3, ← h4]
      rw [C40_text, C40_text, if_pos h1, if_pos h2, flatMap_enc, flatMap_enc, ← e3, ← e4, e]

/-- C90.  Arguments whose characters can all be printed are written alike only if they are equal. -/
theorem C90_injective (isPrint : Char → Bool) {s s' : Str} (h : ∀ c ∈ s, isPrint c = true) (h' : ∀ c ∈ s', isPrint c = true) (he : Enquote isPrint s = Enquote isPrint s') : s = s' := by
  have key : ∀ {s : Str}, (∀ c ∈ s, isPrint c = true) → s.flatMap (showChar isPrint) = s := by
    intro s h
    induction s with
    | nil => rfl
    | cons c s ih =>
      rw [List.flatMap_cons, ih fun x hx => h x (by simp [hx]), showChar, if_pos (by simp [h c (by simp)])]
      rfl
  rcases (C90_alike_iff isPrint s s').mp he with h1 | ⟨-, -, t, h1, h2⟩
  · exact h1
  · rw [shown_iff, key h] at h1
    rw [shown_iff, key h'] at h2
    exact h1.symm.trans h2

/-- C90, the boundary.  A line feed and the two characters `\n` are written alike: the build does not tell them apart, whatever can be printed besides (a line feed cannot). -/
theorem C90_false_injective (isPrint : Char → Bool) (h1 : isPrint '\n' = false) (h2 : isPrint 'n' = true) (h3 : isPrint ' ' = true) :
    Enquote isPrint c!" \n" = Enquote isPrint c!" \\n" ∧ (c!" \n" : Str) ≠ c!" \\n" := by
  refine ⟨(C90_alike_iff ..).mpr (.inr ⟨by decide +kernel, by decide +kernel, c!" \\n", ?_, ?_⟩), by decide⟩
  · exact ⟨[c!" ", c!"\\n"], .cons (.plain (by simp [h3])) (.cons (.escaped (by decide) (by decide) h1 (.letter (by decide))) .nil), rfl⟩
  · exact ⟨[c!" ", c!"\\", c!"n"], .cons (.plain (by simp [h3])) (.cons (.plain (by simp)) (.cons (.plain (by simp [h2])) .nil)), rfl⟩

/-- A control character, a character of another plane, and quotes of both kinds. -/
example : Enquote (fun c => c.toNat < 127 && 32 ≤ c.toNat) ['\x1a', ' ', '"', '\'', '😀', 'é'] = c!"'\\x1a \"\\'\\U0001f600\\u00e9'" := by decide +kernel

example : ∃ q t, Shown (fun c => c.toNat < 127 && 32 ≤ c.toNat) ['\x1a', ' '] t ∧ ('"' ∈ (['\x1a', ' '] : Str) ∧ q = '\'' ∨ '"' ∉ (['\x1a', ' '] : Str) ∧ q = '"') ∧
    Enquote (fun c => c.toNat < 127 && 32 ≤ c.toNat) ['\x1a', ' '] = q :: betweenQuotes q t ++ [q] := C90_text _ (by decide +kernel)

/-- Different arguments with quotes and backslashes are written differently. -/
example : Enquote (fun c => 32 ≤ c.toNat) c!"\"\\'" ≠ Enquote (fun c => 32 ≤ c.toNat) c!"\"'" :=
  fun h => absurd (C90_injective _ (by decide) (by decide) h) (by decide)

end Verif
