import Verif.Model.Lex
import Verif.Spec.Items
/-!
# Basic lemmas about the lexer model
-/
namespace Verif

theorem isSpace_single (c : Char) : isSpace [c] = isSpaceRune c := by
  simp only [isSpace, trimSpace, trimLeftSpace, trimRightSpace]
  cases h : isSpaceRune c <;> simp [List.dropWhile, h]

theorem isSpace_esc (c : Char) : isSpace ['\\', c] = false := by
  have h0 : isSpaceRune '\\' = false := by decide
  simp only [isSpace, trimSpace, trimLeftSpace, trimRightSpace]
  cases h : isSpaceRune c <;> simp [List.dropWhile, h, h0]

theorem isEOL_single (c : Char) : isEOL [c] = (c == '\n') := by
  by_cases h : c = '\n'
  · simp [isEOL, hasSuffix, List.isSuffixOf, List.isPrefixOf, h]
  · rw [Bool.eq_iff_iff]
    simp [isEOL, hasSuffix, List.isSuffixOf, List.isPrefixOf]
    exact eq_comm

theorem isEOL_esc (c : Char) : isEOL ['\\', c] = (c == '\n') := by
  by_cases h : c = '\n'
  · simp [isEOL, hasSuffix, List.isSuffixOf, List.isPrefixOf, h]
  · rw [Bool.eq_iff_iff]
    simp [isEOL, hasSuffix, List.isSuffixOf, List.isPrefixOf]
    exact eq_comm

theorem hasSuffix_append_single (s : Str) (c d : Char) : hasSuffix (s ++ [c]) [d] = (c == d) := by
  by_cases h : c = d
  · simp [hasSuffix, List.isSuffixOf, List.isPrefixOf, h]
  · rw [Bool.eq_iff_iff]
    simp [hasSuffix, List.isSuffixOf, List.isPrefixOf]
    exact eq_comm

/-- No external lexer. -/
abbrev noExt : ExtLexers := fun _ => none

/-- The loop without external lexers. -/
abbrev loop (st : LexSt) (s : List Char) : List Tok := tokenizeLoop noExt 0 st s

theorem lex_eq_loop (s : List Char) : lex s = loop {} s := rfl

/-- the state after counting a line feed -/
def bump (st : LexSt) (c : Char) : LexSt :=
  if c == '\n' then { st with tokenLine := st.tokenLine + 1, nextTokenIsDirective := true } else st

theorem loop_nil (st : LexSt) : loop st [] = lexFinish st := by simp [loop, tokenizeLoop]

theorem loop_cr (st : LexSt) (cs : List Char) : loop st ('\r' :: cs) = loop st cs := by
  simp [loop, tokenizeLoop]

theorem loop_backslash (st : LexSt) (cs : List Char) (h : st.esc = false) :
    loop st ('\\' :: cs) = loop { st with esc := true } cs := by
  simp [loop, tokenizeLoop, h]

/-- The effect of one `la`. -/
def contin (cs : List Char) : List Tok × Option LexSt → List Tok
  | (out, none) => out
  | (out, some st) => out ++ loop st cs

theorem bump_def (st : LexSt) (c : Char) :
    (if (c == '\n') = true then { st with tokenLine := st.tokenLine + 1, nextTokenIsDirective := true } else st)
      = bump st c := rfl

theorem bump_esc (st : LexSt) (c : Char) : (bump st c).esc = st.esc := by unfold bump; split <;> rfl

theorem loop_plain (st : LexSt) (c : Char) (cs : List Char) (h : st.esc = false) (h1 : c ≠ '\r') (h2 : c ≠ '\\') :
    loop st (c :: cs) = contin cs (lexSwitch { bump st c with esc := false } [c]) := by
  have hb : (bump st c).esc = false := by rw [bump_esc, h]
  have e1 : (c == '\r') = false := by simpa using h1
  have e2 : (c == '\\') = false := by simpa using h2
  rw [loop, tokenizeLoop]
  simp only [bump_def, e1, e2, hb, Bool.false_and, Bool.false_eq_true, if_false, ite_self]
  rcases hh : lexSwitch { bump st c with esc := false } [c] with ⟨out, o⟩
  cases o <;> simp [contin]

theorem loop_esc (st : LexSt) (c : Char) (cs : List Char) (h : st.esc = true) (h1 : c ≠ '\r') :
    loop st (c :: cs) = contin cs (lexSwitch { bump st c with esc := false } ['\\', c]) := by
  have hb : (bump st c).esc = true := by rw [bump_esc, h]
  have e1 : (c == '\r') = false := by simpa using h1
  rw [loop, tokenizeLoop]
  simp only [bump_def, e1, hb, Bool.not_true, Bool.and_false, Bool.false_eq_true, if_false, if_true, ite_self]
  rcases hh : lexSwitch { bump st c with esc := false } ['\\', c] with ⟨out, o⟩
  cases o <;> simp [contin]

open Spec

/-- Reading one unit. -/
theorem loop_unit (st : LexSt) (u : U) (cs : List Char) (h : st.esc = false) (hu : u.wf) :
    loop st (u.text ++ cs) = contin cs (lexSwitch (bump st u.char) u.text) := by
  have hb : ∀ c, { bump st c with esc := false } = bump st c := by
    intro c
    have h' : (bump st c).esc = false := by rw [bump_esc, h]
    rcases hh : bump st c with ⟨⟩
    rw [hh] at h'
    simp only at h'
    simp [h']
  cases u with
  | plain c =>
    simp only [U.wf] at hu
    simp only [U.text, List.singleton_append, U.char]
    rw [loop_plain st c cs h hu.2 hu.1, hb]
  | esc c =>
    simp only [U.wf] at hu
    simp only [U.text, List.cons_append, List.nil_append, U.char]
    rw [loop_backslash st _ h, loop_esc _ c cs rfl hu]
    congr 2
    have : { bump { st with esc := true } c with esc := false } = { bump st c with esc := false } := by
      unfold bump; split <;> rfl
    rw [this, hb]

theorem isSpace_unit (u : U) : isSpace u.text = (match u with | .plain c => isSpaceRune c | .esc _ => false) := by
  cases u <;> simp [U.text, isSpace_single, isSpace_esc]

theorem isEOL_unit (u : U) : isEOL u.text = (u.char == '\n') := by
  cases u <;> simp [U.text, isEOL_single, isEOL_esc, U.char]

theorem isSpecial_unit (u : U) : isSpecial u.text = (match u with | .plain c => isSpecialChar c | .esc _ => false) := by
  cases u <;> simp [U.text, isSpecial, isSpecialChar] <;> rfl

theorem text_ne_nil (u : U) : u.text ≠ [] := by cases u <;> simp [U.text]

theorem hasSuffix_text (s : Str) (u : U) (d : Char) : hasSuffix (s ++ u.text) [d] = (u.char == d) := by
  cases u with
  | plain c => exact hasSuffix_append_single s c d
  | esc c =>
    have : s ++ U.text (.esc c) = (s ++ ['\\']) ++ [c] := by simp [U.text]
    rw [this]; exact hasSuffix_append_single _ c d

theorem nls_nil : nls [] = 0 := rfl

theorem nls_append (a b : Str) : nls (a ++ b) = nls a + nls b := by simp [nls]

theorem nls_single (c : Char) : nls [c] = if c = '\n' then 1 else 0 := by
  by_cases h : c = '\n' <;> simp [nls, h]

theorem nls_unit (u : U) : nls u.text = if u.char = '\n' then 1 else 0 := by
  cases u with
  | plain c => exact nls_single c
  | esc c =>
    have : U.text (.esc c) = ['\\'] ++ [c] := rfl
    rw [this, nls_append, nls_single, nls_single]; simp [U.char]; rfl

end Verif
