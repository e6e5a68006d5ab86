import Verif.Model.Build
import Verif.Props.Lexer
import Mathlib.Tactic.Tauto
/-!
# C40: what Enquote writes, and how it is read
-/
namespace Verif
open Spec

/-! ## The quoted form -/

/-- What becomes of a character between quotes `q`. -/
def enc (isPrint : Char → Bool) (q : Char) (c : Char) : Str :=
  if c = '\\' ∨ c = '"' then [c]
  else if isPrint c = true then (if c = '\'' ∧ q = '\'' then ['\\', '\''] else [c])
  else escapeRune isPrint c

/-- The escape of a character is a backslash, a letter and digits, or the character. -/
inductive EscShape : Str → Prop
  | mk (x : Char) (xs : Str) : x ≠ '\\' → x ≠ '"' → x ≠ '\'' → (∀ c ∈ xs, c ≠ '\\' ∧ c ≠ '"' ∧ c ≠ '\'') → EscShape ('\\' :: x :: xs)

theorem hexDigit_plain (n : Nat) (h : n < 16) : hexDigit n ≠ '\\' ∧ hexDigit n ≠ '"' ∧ hexDigit n ≠ '\'' := by
  revert n; decide

theorem hexDigits_plain (k n : Nat) : ∀ c ∈ hexDigits k n, c ≠ '\\' ∧ c ≠ '"' ∧ c ≠ '\'' := by
  induction k generalizing n with
  | zero => simp [hexDigits]
  | succ k ih =>
    intro c hc
    rw [hexDigits, List.mem_append] at hc
    rcases hc with hc | hc
    · exact ih _ c hc
    · rw [List.mem_singleton] at hc; subst hc; exact hexDigit_plain _ (Nat.mod_lt _ (by decide))

theorem escapeRune_shape (isPrint : Char → Bool) (c : Char) (h : isPrint c = false) : EscShape (escapeRune isPrint c) ∨
    (c = '\\' ∨ c = '"') := by
  unfold escapeRune
  by_cases h1 : c = '\\' ∨ c = '"'
  · exact Or.inr h1
  · left
    have e1 : ¬ ((c == '"' || c == '\\') = true) := by simp only [Bool.or_eq_true, beq_iff_eq]; tauto
    rw [if_neg e1, if_neg (by simp [h])]
    split; · exact .mk _ _ (by decide) (by decide) (by decide) (by simp)
    split; · exact .mk _ _ (by decide) (by decide) (by decide) (by simp)
    split; · exact .mk _ _ (by decide) (by decide) (by decide) (by simp)
    split; · exact .mk _ _ (by decide) (by decide) (by decide) (by simp)
    split; · exact .mk _ _ (by decide) (by decide) (by decide) (by simp)
    split; · exact .mk _ _ (by decide) (by decide) (by decide) (by simp)
    split; · exact .mk _ _ (by decide) (by decide) (by decide) (by simp)
    split; · exact .mk _ _ (by decide) (by decide) (by decide) (hexDigits_plain _ _)
    split; · exact .mk _ _ (by decide) (by decide) (by decide) (hexDigits_plain _ _)
    exact .mk _ _ (by decide) (by decide) (by decide) (hexDigits_plain _ _)

theorem replaceAll2_skip {a b : Char} {r : Str} {x : Char} (h : x ≠ a) (rest : Str) : replaceAll2 a b r (x :: rest) = x :: replaceAll2 a b r rest := by
  cases rest with
  | nil => simp [replaceAll2]
  | cons y rest => simp [replaceAll2, h]

theorem replaceAll2_skip2 {a b : Char} {r : Str} {x y : Char} (h : y ≠ b) (rest : Str) :
    replaceAll2 a b r (x :: y :: rest) = x :: replaceAll2 a b r (y :: rest) := by
  simp [replaceAll2, h]

theorem replaceAll2_hit {a b : Char} {r : Str} (rest : Str) : replaceAll2 a b r (a :: b :: rest) = r ++ replaceAll2 a b r rest := by
  simp [replaceAll2]

theorem replaceAll2_plain {a b : Char} {r : Str} (xs : Str) (h : ∀ x ∈ xs, x ≠ a) (rest : Str) :
    replaceAll2 a b r (xs ++ rest) = xs ++ replaceAll2 a b r rest := by
  induction xs with
  | nil => rfl
  | cons x xs ih =>
    rw [List.cons_append, replaceAll2_skip (h x (by simp)), ih (fun y hy => h y (by simp [hy]))]; rfl

theorem replaceAll1_append (a : Char) (r : Str) (xs ys : Str) : replaceAll1 a r (xs ++ ys) = replaceAll1 a r xs ++ replaceAll1 a r ys := by
  induction xs with
  | nil => rfl
  | cons x xs ih => simp [replaceAll1, ih]

theorem replaceAll1_plain {a : Char} {r : Str} (xs : Str) (h : ∀ x ∈ xs, x ≠ a) : replaceAll1 a r xs = xs := by
  induction xs with
  | nil => rfl
  | cons x xs ih => simp [replaceAll1, h x (by simp), ih (fun y hy => h y (by simp [hy]))]

/-- An escape passes through the replacements unchanged. -/
theorem EscShape.pass2 {e : Str} (h : EscShape e) {b : Char} (hb : b = '"' ∨ b = '\\') {r : Str} (rest : Str) :
    replaceAll2 '\\' b r (e ++ rest) = e ++ replaceAll2 '\\' b r rest := by
  obtain ⟨x, xs, h1, h2, h3, h4⟩ := h
  have hx : x ≠ b := by rcases hb with rfl | rfl <;> assumption
  rw [List.cons_append, List.cons_append, replaceAll2_skip2 hx, replaceAll2_skip h1, replaceAll2_plain _ (fun c hc => (h4 c hc).1)]
  rfl

theorem EscShape.pass1 {e : Str} (h : EscShape e) {r : Str} : replaceAll1 '\'' r e = e := by
  obtain ⟨x, xs, h1, h2, h3, h4⟩ := h
  exact replaceAll1_plain _ (by
    intro c hc
    rcases List.mem_cons.mp hc with rfl | hc
    · decide
    rcases List.mem_cons.mp hc with rfl | hc
    · exact h3
    · exact (h4 c hc).2.2)

/-- The text after the first replacement of `repr`; a backslash at the end has lost its double. -/
def mid1 (isPrint : Char → Bool) : Str → Str
  | [] => []
  | c :: s =>
    if c = '\\' then (if s = [] then ['\\'] else '\\' :: '\\' :: mid1 isPrint s)
    else (if c = '"' then ['"'] else escapeRune isPrint c) ++ mid1 isPrint s

theorem escapeRune_cases (isPrint : Char → Bool) (c : Char) (h1 : c ≠ '\\') (h2 : c ≠ '"') :
    (escapeRune isPrint c = [c] ∧ isPrint c = true) ∨ (EscShape (escapeRune isPrint c) ∧ isPrint c = false) := by
  cases h : isPrint c with
  | true => left; unfold escapeRune; simp [h, h1, h2]
  | false =>
    right
    rcases escapeRune_shape isPrint c h with hs | hs
    · exact ⟨hs, rfl⟩
    · rcases hs with rfl | rfl <;> contradiction

theorem escapeRune_head (isPrint : Char → Bool) (c : Char) : ∃ x xs, escapeRune isPrint c = x :: xs ∧ x ≠ '"' := by
  by_cases h1 : c = '\\'
  · exact ⟨'\\', ['\\'], by simp [escapeRune, h1], by decide⟩
  by_cases h2 : c = '"'
  · exact ⟨'\\', ['"'], by simp [escapeRune, h2], by decide⟩
  rcases escapeRune_cases isPrint c h1 h2 with ⟨h, -⟩ | ⟨h, -⟩
  · exact ⟨c, [], h, h2⟩
  · generalize escapeRune isPrint c = e at h
    obtain ⟨x, xs, _, _, _, _⟩ := h
    exact ⟨'\\', _, rfl, by decide⟩

theorem pass_mid1 (isPrint : Char → Bool) (s : Str) :
    replaceAll2 '\\' '"' ['"'] (s.flatMap (escapeRune isPrint) ++ ['"']) = mid1 isPrint s ++ ['"'] := by
  induction s with
  | nil => rfl
  | cons c s ih =>
    rw [List.flatMap_cons, List.append_assoc]
    by_cases h1 : c = '\\'
    · subst h1
      have e : escapeRune isPrint '\\' = ['\\', '\\'] := by simp [escapeRune]
      rw [e, mid1, if_pos rfl]
      simp only [List.cons_append, List.nil_append]
      rw [replaceAll2_skip2 (by decide)]
      by_cases hs : s = []
      · subst hs; rfl
      · rw [if_neg hs]
        obtain ⟨c2, s2, rfl⟩ : ∃ c2 s2, s = c2 :: s2 := by
          cases s with
          | nil => exact absurd rfl hs
          | cons c2 s2 => exact ⟨c2, s2, rfl⟩
        obtain ⟨x, xs, hx, hne⟩ := escapeRune_head isPrint c2
        rw [List.flatMap_cons, hx] at ih ⊢
        simp only [List.cons_append] at ih ⊢
        rw [replaceAll2_skip2 hne, ih]
    · by_cases h2 : c = '"'
      · subst h2
        have e : escapeRune isPrint '"' = ['\\', '"'] := by simp [escapeRune]
        rw [e, mid1, if_neg h1, if_pos rfl]
        simp only [List.cons_append, List.nil_append]
        rw [replaceAll2_hit, ih]; rfl
      · rw [mid1, if_neg h1, if_neg h2]
        rcases escapeRune_cases isPrint c h1 h2 with ⟨h, -⟩ | ⟨h, -⟩
        · rw [h, List.cons_append, List.nil_append, replaceAll2_skip h1, ih]; rfl
        · rw [h.pass2 (Or.inl rfl), ih, List.append_assoc]

/-- The text between the quotes before the last replacement, for single quotes. -/
theorem pass_single (isPrint : Char → Bool) (s : Str) :
    replaceAll2 '\\' '\\' ['\\'] (replaceAll1 '\'' ['\\', '\''] (mid1 isPrint s) ++ ['\'']) = s.flatMap (enc isPrint '\'') ++ ['\''] := by
  induction s with
  | nil => rfl
  | cons c s ih =>
    by_cases h1 : c = '\\'
    · subst h1
      rw [mid1, if_pos rfl]
      by_cases hs : s = []
      · subst hs; rfl
      · rw [if_neg hs]
        have e : replaceAll1 '\'' ['\\', '\''] ('\\' :: '\\' :: mid1 isPrint s) = '\\' :: '\\' :: replaceAll1 '\'' ['\\', '\''] (mid1 isPrint s) := rfl
        rw [e, List.cons_append, List.cons_append, replaceAll2_hit, ih]
        simp [enc]
    · rw [mid1, if_neg h1, replaceAll1_append, List.append_assoc, List.flatMap_cons, List.append_assoc, ← ih]
      by_cases h2 : c = '"'
      · subst h2
        rw [if_pos rfl]
        have e : replaceAll1 '\'' ['\\', '\''] ['"'] = ['"'] := rfl
        rw [e, List.cons_append, List.nil_append, replaceAll2_skip (by decide)]
        simp [enc]
      · rw [if_neg h2]
        rcases escapeRune_cases isPrint c h1 h2 with ⟨h, hp⟩ | ⟨h, hp⟩
        · rw [h]
          by_cases h3 : c = '\''
          · subst h3
            have e : replaceAll1 '\'' ['\\', '\''] ['\''] = ['\\', '\''] := rfl
            rw [e]
            simp only [List.cons_append, List.nil_append]
            rw [replaceAll2_skip2 (by decide), replaceAll2_skip (by decide)]
            simp [enc, hp]
          · rw [replaceAll1_plain [c] (by simpa using h3), List.cons_append, List.nil_append, replaceAll2_skip h1]
            simp [enc, hp, h1, h2, h3]
        · rw [h.pass1, h.pass2 (Or.inr rfl)]
          simp [enc, hp, h1, h2]

theorem pass_double (isPrint : Char → Bool) (s : Str) (hq : '"' ∉ s) :
    replaceAll2 '\\' '\\' ['\\'] (s.flatMap (escapeRune isPrint) ++ ['"']) = s.flatMap (enc isPrint '"') ++ ['"'] := by
  induction s with
  | nil => rfl
  | cons c s ih =>
    have ih := ih (fun h => hq (by simp [h]))
    have h2 : c ≠ '"' := fun h => hq (by simp [h])
    rw [List.flatMap_cons, List.append_assoc, List.flatMap_cons, List.append_assoc, ← ih]
    by_cases h1 : c = '\\'
    · subst h1
      have e : escapeRune isPrint '\\' = ['\\', '\\'] := by simp [escapeRune]
      rw [e]
      simp only [List.cons_append, List.nil_append]
      rw [replaceAll2_hit]; simp [enc]
    · rcases escapeRune_cases isPrint c h1 h2 with ⟨h, hp⟩ | ⟨h, hp⟩
      · rw [h, List.cons_append, List.nil_append, replaceAll2_skip h1]
        simp [enc, hp, h1, h2]
      · rw [h.pass2 (Or.inr rfl)]
        simp [enc, hp, h1, h2]

/-- The quotes Enquote uses. -/
def quoteFor (s : Str) : Char := if '"' ∈ s then '\'' else '"'

/-- C40: what Enquote writes.  Strings that need quotes are put between double quotes, or between single quotes if they contain double quotes;
between them, characters that cannot be printed are escaped, and single quotes within single quotes. -/
theorem C40_text (isPrint : Char → Bool) (s : Str) :
    Enquote isPrint s = if needsQuote s = true then quoteFor s :: s.flatMap (enc isPrint (quoteFor s)) ++ [quoteFor s] else s := by
  unfold Enquote
  cases hn : needsQuote s with
  | false => simp
  | true =>
    simp only [Bool.not_true, Bool.false_eq_true, if_false, if_true]
    unfold repr quoteFor
    by_cases hq : '"' ∈ s
    · have ha : s.any (· == '"') = true := by simpa using hq
      simp only [ha, if_true, if_pos hq]
      have e1 : replaceAll2 '\\' '"' ['"'] (goQuote isPrint s) = '"' :: (mid1 isPrint s ++ ['"']) := by
        unfold goQuote
        rw [List.cons_append, replaceAll2_skip (by decide), pass_mid1]
      rw [e1]
      have e2 : replaceAll1 '\'' ['\\', '\''] ('"' :: (mid1 isPrint s ++ ['"'])) =
          '"' :: (replaceAll1 '\'' ['\\', '\''] (mid1 isPrint s) ++ ['"']) := by
        rw [replaceAll1, replaceAll1_append]; rfl
      rw [e2]
      simp only [List.drop_one, List.tail_cons, List.dropLast_concat]
      rw [List.cons_append, replaceAll2_skip (by decide), pass_single]
      rfl
    · have ha : s.any (· == '"') = false := by simp only [List.any_eq_false, beq_iff_eq]; rintro x hx rfl; exact hq hx
      simp only [ha, Bool.false_eq_true, if_false, if_neg hq]
      unfold goQuote
      rw [List.cons_append, replaceAll2_skip (by decide), pass_double isPrint s hq]
      rfl

example : Enquote (fun c => c ≠ '\t') c!"it's a \"\\x\" \t" = c!"'it\\'s a \"\\x\" \\t'" := by decide +kernel

/-! ## The unquoted form -/

theorem loop_end (e : Bool) (ch p : Char) (l : Str) (x : Char) (hx : x = '\\' ∨ x = '$') : needsQuoteLoop e ch p (l ++ [x]) = true := by
  induction l generalizing e ch p with
  | nil =>
    unfold needsQuoteLoop
    simp only [List.nil_append]
    rcases hx with rfl | rfl
    all_goals
      repeat' split
      all_goals simp_all [needsQuoteLoop]
  | cons c l ih =>
    rw [List.cons_append, needsQuoteLoop]
    repeat' split
    all_goals first | rfl | exact ih _ _ _

/-- The end of `escape`. -/
def escapeEnd (pc : Char) (s : Str) : Str := if s.getLast?.getD pc = '\\' ∨ s.getLast?.getD pc = '$' then [s.getLast?.getD pc] else []

theorem escapeEnd_cons (pc c : Char) (s : Str) : escapeEnd pc (c :: s) = escapeEnd c s := by
  unfold escapeEnd
  rw [List.getLast?_cons]
  simp

/-- `escape` changes nothing, or it repeats the last character, which is a backslash or a dollar sign. -/
theorem escapeLoop_eq (n : Nat) : ∀ (s : Str), s.length ≤ n → ∀ pc : Char, pc ≠ '\\' →
    ∃ x, escapeLoop pc s ++ escapeEnd pc s = (if pc = '$' then ['$'] else []) ++ s ++ x ∧ (x = [] ∨ x = ['\\'] ∨ x = ['$']) := by
  induction n with
  | zero =>
    intro s hn pc hpc
    obtain rfl : s = [] := List.length_eq_zero_iff.mp (Nat.le_zero.mp hn)
    refine ⟨[], ?_, Or.inl rfl⟩
    by_cases hd : pc = '$' <;> simp [escapeLoop, escapeEnd, hd, hpc]
  | succ n ih =>
    intro s hn pc hpc
    cases s with
    | nil =>
      refine ⟨[], ?_, Or.inl rfl⟩
      by_cases hd : pc = '$' <;> simp [escapeLoop, escapeEnd, hd, hpc]
    | cons c s =>
      have hlen : s.length ≤ n := by simpa using hn
      rw [escapeLoop, escapeEnd_cons]
      by_cases h1 : pc = '$' ∧ c = '{'
      · obtain ⟨rfl, rfl⟩ := h1
        obtain ⟨x, hx, hx2⟩ := ih s hlen '\x00' (by decide)
        refine ⟨x, ?_, hx2⟩
        have he : escapeEnd '{' s = escapeEnd '\x00' s := by
          unfold escapeEnd
          cases s.getLast? <;> rfl
        have hx' : escapeLoop '\x00' s ++ escapeEnd '\x00' s = s ++ x := by simpa using hx
        rw [he]
        simp [hx']
      · rw [if_neg (by simpa [hpc] using h1)]
        by_cases hb : c = '\\'
        · subst hb
          -- the next character is written with its backslash
          cases s with
          | nil =>
            refine ⟨[], ?_, Or.inl rfl⟩
            by_cases hd : pc = '$' <;> simp [escapeLoop, escapeEnd, hd]
          | cons d s =>
            have hstep : escapeLoop '\\' (d :: s) = '\\' :: d :: escapeLoop '\x00' s := by simp [escapeLoop]
            rw [hstep, escapeEnd_cons]
            obtain ⟨x, hx, hx2⟩ := ih s (by simp at hlen; omega) '\x00' (by decide)
            have hx' : escapeLoop '\x00' s ++ escapeEnd '\x00' s = s ++ x := by simpa using hx
            cases s with
            | nil =>
              refine ⟨escapeEnd d [], ?_, ?_⟩
              · by_cases hd : pc = '$' <;> simp [escapeLoop, hd]
              · unfold escapeEnd
                by_cases h2 : d = '\\'
                · simp [h2]
                · by_cases h3 : d = '$' <;> simp [h2, h3]
            | cons e s =>
              rw [escapeEnd_cons] at hx' ⊢
              refine ⟨x, ?_, hx2⟩
              by_cases hd : pc = '$' <;> simp [hd, hx']
        · obtain ⟨x, hx, hx2⟩ := ih s hlen c hb
          refine ⟨x, ?_, hx2⟩
          by_cases hd : pc = '$'
          · by_cases hc : c = '$'
            · subst hc
              have hx' : escapeLoop '$' s ++ escapeEnd '$' s = '$' :: s ++ x := by simpa using hx
              simp [hd, hx']
            · have hx' : escapeLoop c s ++ escapeEnd c s = s ++ x := by simpa [hc] using hx
              simp [hd, hc, hb, hx']
          · by_cases hc : c = '$'
            · subst hc
              have hx' : escapeLoop '$' s ++ escapeEnd '$' s = '$' :: s ++ x := by simpa using hx
              simp [hd, hx']
            · have hx' : escapeLoop c s ++ escapeEnd c s = s ++ x := by simpa [hc] using hx
              simp [hd, hc, hb, hx']

theorem escape_eq (s : Str) : ∃ x, escape s = s ++ x ∧ (x = [] ∨ x = ['\\'] ∨ x = ['$']) := by
  unfold escape
  split
  · exact ⟨[], by simp, Or.inl rfl⟩
  · obtain ⟨x, hx, hx2⟩ := escapeLoop_eq s.length s (Nat.le_refl _) '\x00' (by decide)
    refine ⟨x, ?_, hx2⟩
    have hx' : escapeLoop '\x00' s ++ escapeEnd '\x00' s = s ++ x := by simpa using hx
    rw [← hx']
    unfold escapeEnd
    simp

/-- A string that needs no quotes: `escape` does not change it and the loop finds nothing. -/
theorem needsQuote_false {s : Str} (h : needsQuote s = false) : ∃ c cs, s = c :: cs ∧
    (isSpaceRune c = false ∧ c ≠ '{' ∧ c ≠ '}' ∧ c ≠ ';' ∧ c ≠ '"' ∧ c ≠ '\'') ∧ ¬ (c = '$' ∧ ∃ r, cs = '{' :: r) ∧
    needsQuoteLoop false c '\x00' cs = false := by
  unfold needsQuote at h
  obtain ⟨x, hx, hx2⟩ := escape_eq s
  cases s with
  | nil => simp at h
  | cons c cs =>
    rw [hx] at h
    simp only [List.cons_append, reduceCtorEq, beq_iff_eq, if_false] at h
    split at h
    · cases h
    · rename_i h1
      simp only [Bool.or_eq_true, beq_iff_eq, not_or, Bool.not_eq_true] at h1
      obtain ⟨⟨h1, h2⟩, h3⟩ := h1
      rcases hx2 with rfl | rfl | rfl
      · refine ⟨c, cs, rfl, by tauto, ?_, by simpa using h⟩
        rintro ⟨rfl, r, rfl⟩
        simp [hasPrefix] at h3
      · rw [loop_end _ _ _ _ _ (Or.inl rfl)] at h; cases h
      · rw [loop_end _ _ _ _ _ (Or.inr rfl)] at h; cases h

/-- After a unit, outside of `${`. -/
theorem loop_units (us : List U) (hu : ∀ u ∈ us, u.wf) : ∀ {ch prev : Char} {dollar : Bool}, prev ≠ '\\' →
    needsQuoteLoop false ch prev (textOf us) = false → ∃ d, WordPos.run (.out dollar) us = some (.out d) := by
  induction us with
  | nil => intro ch prev dollar _ _; exact ⟨dollar, rfl⟩
  | cons u us ih =>
    intro ch prev dollar hp h
    have hu' : ∀ v ∈ us, v.wf := fun v hv => hu v (by simp [hv])
    cases u with
    | plain c =>
      have hw := hu (.plain c) (by simp)
      rw [textOf_cons, U.text, List.cons_append, List.nil_append, needsQuoteLoop, if_neg (by simpa using hp)] at h
      split at h
      · cases h
      rename_i h1
      split at h
      · cases h
      rename_i h2
      simp only [Bool.or_eq_true, beq_iff_eq, not_or, Bool.not_eq_true] at h1
      simp at h2
      have hexp : ¬ ((false && c == '}' || !false && (prev == '$' && c == '{')) = true) := by simp; intro _; exact h1.1.1.1.2
      simp only [if_neg hexp] at h
      obtain ⟨d, hd⟩ := ih hu' (dollar := decide (c = '$')) hw.1 h
      refine ⟨d, ?_⟩
      have hn : WordPos.next (.out dollar) (.plain c) = some (.out (decide (c = '$'))) := by
        simp [WordPos.next, isSpecialChar, h1, h2]
      simp [WordPos.run, hn, hd]
    | esc c =>
      rw [textOf_cons, U.text] at h
      simp only [List.cons_append, List.nil_append] at h
      rw [needsQuoteLoop, if_neg (by simpa using hp)] at h
      split at h
      · cases h
      split at h
      · cases h
      simp only at h
      rw [needsQuoteLoop, if_pos (by simp)] at h
      have hexp : ¬ ((false && '\\' == '}' || !false && (prev == '$' && '\\' == '{')) = true) := by simp
      rw [if_neg hexp] at h
      obtain ⟨d, hd⟩ := ih hu' (dollar := decide (c = '$')) (show '\x00' ≠ '\\' by decide) h
      exact ⟨d, by simp [WordPos.run, WordPos.next, hd]⟩

/-! ## Reading it back -/

/-- An item that is a whole token: a word or a closed quoted string. -/
inductive OneTok : Item → Str → Prop
  | word {us} {d : Bool} : (∀ u ∈ us, u.wf) → (∃ u us', us = u :: us' ∧ startsWord u) → WordPos.run (.out false) us = some (.out d) →
      OneTok (.word us) (textOf us)
  | quoted {q us} : q = '"' ∨ q = '\'' → (∀ u ∈ us, u.wf ∧ u ≠ .plain q) → OneTok (.quoted q us true) (quotedValue q us)

/-- The text `t` is one token, with value `v`. -/
def IsToken (t v : Str) : Prop := ∃ i : Item, i.text = t ∧ OneTok i v

/-- Strings without quotes, not starting with a number sign or with two backslashes. -/
theorem unquoted_token (isPrint : Char → Bool) {s : Str} (h : needsQuote s = false) (hr : '\r' ∉ s) (h1 : s.head? ≠ some '#')
    (h2 : ¬ ∃ r, s = '\\' :: '\\' :: r) : IsToken (Enquote isPrint s) s := by
  obtain ⟨c, cs, rfl, hc, hdollar, hloop⟩ := needsQuote_false h
  obtain ⟨us, dg, he, hd, hw⟩ := units_cover (c :: cs) hr
  have hdg : dg = [] := by
    rcases hd with rfl | rfl
    · rfl
    · exfalso
      -- a single backslash at the end
      rcases List.eq_nil_or_concat us with rfl | ⟨us', u, rfl⟩
      · simp [textOf] at he
        obtain ⟨rfl, rfl⟩ := he
        simp [needsQuoteLoop] at hloop
      · rw [List.concat_eq_append] at he
        have : ∃ l, cs = l ++ ['\\'] := by
          cases hx : textOf (us' ++ [u]) with
          | nil => rw [textOf_append, textOf_cons] at hx; cases u <;> simp [U.text, textOf] at hx
          | cons x xs =>
            rw [hx] at he
            simp at he
            exact ⟨xs, he.2⟩
        obtain ⟨l, rfl⟩ := this
        rw [loop_end _ _ _ _ _ (Or.inl rfl)] at hloop; cases hloop
  subst hdg
  rw [List.append_nil] at he
  have ht : Enquote isPrint (c :: cs) = c :: cs := by rw [C40_text, if_neg (by simp [h])]
  rw [ht]
  cases us with
  | nil => simp [textOf] at he
  | cons u us =>
    cases u with
    | plain c' =>
      rw [textOf_cons, U.text, List.cons_append, List.nil_append, List.cons.injEq] at he
      obtain ⟨rfl, rfl⟩ := he
      obtain ⟨d, hrun⟩ := loop_units us (fun v hv => hw v (by simp [hv])) (dollar := decide (c = '$')) (show '\x00' ≠ '\\' by decide) hloop
      refine ⟨.word (.plain c :: us), by simp [Item.text, textOf_cons, U.text], ?_⟩
      have hs : startsWord (.plain c) := by
        refine ⟨by simp [hc.1], by simp [isSpecialChar, hc], hc.2.2.2.2.1, hc.2.2.2.2.2, by simpa using h1⟩
      have hn : WordPos.next (.out false) (.plain c) = some (.out (decide (c = '$'))) := by
        simp [WordPos.next, isSpecialChar, hc]
      have := OneTok.word (us := .plain c :: us) (d := d) hw ⟨_, _, rfl, hs⟩ (by simp [WordPos.run, hn, hrun])
      simpa [textOf_cons, U.text] using this
    | esc x =>
      rw [textOf_cons, U.text] at he
      simp only [List.cons_append, List.nil_append, List.cons.injEq] at he
      obtain ⟨rfl, rfl⟩ := he
      have hx : x ≠ '\\' := by rintro rfl; exact h2 ⟨_, rfl⟩
      rw [needsQuoteLoop, if_neg (by decide)] at hloop
      split at hloop
      · cases hloop
      rename_i hs1
      split at hloop
      · cases hloop
      simp only at hloop
      have hexp : ¬ ((false && x == '}' || !false && ('\x00' == '$' && x == '{')) = true) := by simp
      rw [if_neg hexp] at hloop
      obtain ⟨d, hrun⟩ := loop_units us (fun v hv => hw v (by simp [hv])) (dollar := decide (x = '$')) hx hloop
      refine ⟨.word (.esc x :: us), by simp [Item.text, textOf_cons, U.text], ?_⟩
      have := OneTok.word (us := .esc x :: us) (d := d) hw ⟨_, _, rfl, trivial⟩ (by simp [WordPos.run, WordPos.next, hrun])
      simpa [textOf_cons, U.text] using this

/-- Strings with quotes, all of whose characters can be printed, with a character after every backslash, and without an escaped single quote
beside a double quote. -/
theorem quoted_token (isPrint : Char → Bool) {us : List U} (h : needsQuote (textOf us) = true) (hw : ∀ u ∈ us, u.wf)
    (hp : ∀ c ∈ textOf us, isPrint c = true) (hq : '"' ∈ textOf us → U.esc '\'' ∉ us) : IsToken (Enquote isPrint (textOf us)) (textOf us) := by
  rw [C40_text, if_pos h]
  unfold quoteFor
  by_cases hm : '"' ∈ textOf us
  · rw [if_pos hm]
    replace hq := hq hm
    let g : U → U := fun u => if u = .plain '\'' then .esc '\'' else u
    refine ⟨.quoted '\'' (us.map g) true, ?_, ?_⟩
    · simp only [Item.text, if_true, List.cons_append, List.cons.injEq, true_and, List.append_left_inj]
      clear h hm
      induction us with
      | nil => rfl
      | cons u us ih =>
        rw [List.map_cons, textOf_cons, textOf_cons, List.flatMap_append,
          ih (fun v hv => hw v (by simp [hv])) (fun c hc => hp c (by rw [textOf_cons]; simp [hc])) (fun hx => hq (by simp [hx]))]
        congr 1
        have hwu := hw u (by simp)
        have hpu : ∀ c ∈ u.text, isPrint c = true := fun c hc => hp c (by rw [textOf_cons]; simp [hc])
        cases u with
        | plain c =>
          have hc := hpu c (by simp [U.text])
          by_cases h1 : c = '\''
          · subst h1; simp [g, U.text, enc, hc]
          · simp [g, U.text, enc, hc, h1]
        | esc c =>
          have hc := hpu c (by simp [U.text])
          have h1 : c ≠ '\'' := by rintro rfl; exact hq (by simp)
          simp [g, U.text, enc, hc, h1]
    · have hv : quotedValue '\'' (us.map g) = textOf us := by
        clear h hm hp
        induction us with
        | nil => rfl
        | cons u us ih =>
          have ih := ih (fun v hv => hw v (by simp [hv])) (fun hx => hq (by simp [hx]))
          unfold quotedValue at ih ⊢
          rw [List.map_cons, List.flatMap_cons, ih, textOf_cons]
          congr 1
          by_cases h1 : u = .plain '\''
          · subst h1; rfl
          · have h2 : u ≠ .esc '\'' := fun h => hq (by simp [h])
            simp [g, h1, h2]
      rw [← hv]
      refine .quoted (Or.inr rfl) ?_
      intro u hu
      obtain ⟨v, hv, rfl⟩ := List.mem_map.mp hu
      by_cases h1 : v = .plain '\''
      · subst h1; simp [g, U.wf]
      · simp [g, h1]; exact hw v hv
  · rw [if_neg hm]
    refine ⟨.quoted '"' us true, ?_, ?_⟩
    · simp only [Item.text, if_true, List.cons_append, List.cons.injEq, true_and, List.append_left_inj]
      have : ∀ s : Str, (∀ c ∈ s, isPrint c = true) → s.flatMap (enc isPrint '"') = s := by
        intro s
        induction s with
        | nil => intro _; rfl
        | cons c s ih =>
          intro hs
          rw [List.flatMap_cons, ih (fun x hx => hs x (by simp [hx]))]
          simp [enc, hs c (by simp)]
      exact (this _ hp).symm
    · have hno : ∀ u ∈ us, u.char ≠ '"' := by
        intro u hu hc
        apply hm
        unfold textOf
        rw [List.mem_flatMap]
        exact ⟨u, hu, by cases u <;> simp_all [U.text, U.char]⟩
      have hv : quotedValue '"' us = textOf us := by
        clear h hm hp hq hw
        induction us with
        | nil => rfl
        | cons u us ih =>
          have ih := ih (fun v hv => hno v (by simp [hv]))
          unfold quotedValue at ih ⊢
          rw [List.flatMap_cons, ih, textOf_cons, if_neg (by rintro rfl; exact hno (.esc '"') (by simp) rfl)]
      have := OneTok.quoted (q := '"') (us := us) (Or.inl rfl) (fun u hu => ⟨hw u hu, by rintro rfl; exact hno _ hu rfl⟩)
      rwa [hv] at this

/-- `lex` reads the text `t`, followed by a semicolon or white space, as one token with value `v`. -/
def ReadAs (t v : Str) : Prop :=
  (∃ quoted, ∃ l1 l2 : Int, lex (t ++ c!";") = [⟨v, l1, quoted, none⟩, ⟨c!";", l2, false, none⟩]) ∧
  ∀ c, isSpaceRune c = true → c ≠ '\r' → ∃ quoted, ∃ l1 : Int, lex (t ++ [c]) = [⟨v, l1, quoted, none⟩]

theorem IsToken.readAs {t v : Str} (h : IsToken t v) : ReadAs t v := by
  obtain ⟨i, rfl, h⟩ := h
  have hwf : ∀ rest, WF rest → (∀ d, wordEnd (.out d) rest) → WF (i :: rest) := by
    intro rest hr he
    cases h with
    | word hw hs hrun => exact ⟨hw, hs, ⟨_, hrun, he _⟩, hr⟩
    | quoted hq hu => exact ⟨hq, hu, by simp, hr⟩
  constructor
  · have e : i.text ++ c!";" = unlex [i, .special ';'] ++ [] := by simp [unlex, Item.text]
    rw [e, lex_items (hwf [.special (';')] ⟨rfl, trivial⟩ (fun d => by simp [wordEnd])) (Or.inl rfl)]
    cases h with
    | word hw hs hrun => exact ⟨_, _, _, rfl⟩
    | quoted hq hu => exact ⟨_, _, _, rfl⟩
  · intro c hc hr
    have e : i.text ++ [c] = unlex [i, .space c] ++ [] := by simp [unlex, Item.text]
    rw [e, lex_items (hwf [.space c] ⟨hc, hr, trivial⟩ (fun d => trivial)) (Or.inl rfl)]
    cases h with
    | word hw hs hrun => exact ⟨_, _, rfl⟩
    | quoted hq hu => exact ⟨_, _, rfl⟩

/-- C40 for strings that are quoted.  (`quoted_token` is the statement for a token anywhere in a text.) -/
theorem C40_quoted_partial (isPrint : Char → Bool) (us : List U) (h : needsQuote (textOf us) = true) (hw : ∀ u ∈ us, u.wf)
    (hp : ∀ c ∈ textOf us, isPrint c = true) (hq : '"' ∈ textOf us → U.esc '\'' ∉ us) : ReadAs (Enquote isPrint (textOf us)) (textOf us) :=
  (quoted_token isPrint h hw hp hq).readAs

/-- C40 for strings that are not quoted. -/
theorem C40_unquoted_partial (isPrint : Char → Bool) (s : Str) (h : needsQuote s = false) (hr : '\r' ∉ s) (h1 : s.head? ≠ some '#')
    (h2 : ¬ ∃ r, s = '\\' :: '\\' :: r) : ReadAs (Enquote isPrint s) s := (unquoted_token isPrint h hr h1 h2).readAs

theorem plain_units {s : Str} (hb : '\\' ∉ s) (hr : '\r' ∉ s) : textOf (s.map U.plain) = s ∧ ∀ u ∈ s.map U.plain, u.wf := by
  refine ⟨?_, ?_⟩
  · clear hb hr
    induction s with
    | nil => rfl
    | cons c s ih => rw [List.map_cons, textOf_cons, ih]; rfl
  · intro u hu
    obtain ⟨c, hc, rfl⟩ := List.mem_map.mp hu
    exact ⟨fun h => hb (h ▸ hc), fun h => hr (h ▸ hc)⟩

theorem plain_token (isPrint : Char → Bool) {s : Str} (hp : ∀ c ∈ s, isPrint c = true) (hcr : isPrint '\r' = false)
    (hb : '\\' ∉ s) (h1 : s.head? ≠ some '#') : IsToken (Enquote isPrint s) s := by
  have hr : '\r' ∉ s := fun h => by rw [hp _ h] at hcr; cases hcr
  cases hn : needsQuote s with
  | false =>
    refine unquoted_token isPrint hn hr h1 ?_
    rintro ⟨r, rfl⟩
    exact hb (by simp)
  | true =>
    obtain ⟨e, hw⟩ := plain_units hb hr
    have := quoted_token isPrint (us := s.map .plain) (by rwa [e]) hw (by rwa [e]) (by intro _ h; simp at h)
    rwa [e] at this

/-- C40 for strings of printable characters without backslashes that do not start with a number sign. -/
theorem C40_partial (isPrint : Char → Bool) (s : Str) (hp : ∀ c ∈ s, isPrint c = true) (hcr : isPrint '\r' = false)
    (hb : '\\' ∉ s) (h1 : s.head? ≠ some '#') : ReadAs (Enquote isPrint s) s := (plain_token isPrint hp hcr hb h1).readAs

example : ReadAs (Enquote (fun c => c ≠ '\r') c!"say \"it's\" {") c!"say \"it's\" {" :=
  C40_partial _ _ (by decide) rfl (by decide) (by decide)
example : ReadAs (Enquote (fun _ => true) c!"a\\;b") c!"a\\;b" := C40_unquoted_partial _ _ rfl (by decide) (by decide) (by rintro ⟨r, h⟩; cases h)

/-- C40 is false for strings starting with a number sign, of two backslashes and a semicolon, ending in a backslash, with an escaped single quote
beside a double quote, and with a character that cannot be printed. -/
theorem C40_false : ∃ isPrint : Char → Bool, (∀ c : Char, 32 ≤ c.toNat → c.toNat ≤ 126 → isPrint c = true) ∧
    ∀ s ∈ [c!"#a", c!"\\\\;", c!"a\\", c!"\\'\"", c!"a\tb"], ¬ ReadAs (Enquote isPrint s) s := by
  refine ⟨fun c => decide (32 ≤ c.toNat), by intro c h _; simpa using h, ?_⟩
  have key : ∀ s ∈ [c!"#a", c!"\\\\;", c!"a\\", c!"\\'\"", c!"a\tb"],
      ((lex (Enquote (fun c => decide (32 ≤ c.toNat)) s ++ c!";")).map Tok.value) ≠ [s, c!";"] := by decide +kernel
  intro s hs h
  obtain ⟨⟨q, l1, l2, h⟩, -⟩ := h
  apply key s hs
  rw [h]; rfl

end Verif
