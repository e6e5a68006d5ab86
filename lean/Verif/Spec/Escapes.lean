import Verif.Model.Str
import Mathlib.Data.List.Forall2
/-!
# Characters as escapes of Go

The escapes of a Go string literal for a character that cannot be printed (the Go Programming Language Specification, "Rune literals").
-/
namespace Verif.Spec

/-- The value of hexadecimal digits in lower case; a digit has its place in the list as value. -/
def hexValue (ds : Str) : Nat := ds.foldl (fun n d => 16 * n + c!"0123456789abcdef".idxOf d) 0

/-- The characters with an escape of one letter. -/
def letterEscapes : List (Char × Char) := [('\x07', 'a'), ('\x08', 'b'), ('\x0c', 'f'), ('\n', 'n'), ('\r', 'r'), ('\t', 't'), ('\x0b', 'v')]

/-- `ds` are `k` digits for the character. -/
structure DigitsOf (k : Nat) (c : Char) (ds : Str) : Prop where
  length : ds.length = k
  digits : ∀ d ∈ ds, d ∈ c!"0123456789abcdef"
  value : hexValue ds = c.toNat

/-- The escape of a character: a letter if there is one, two digits for other control characters of ASCII, else four or eight. -/
inductive EscapeOf (c : Char) : Str → Prop
  | letter {l} : (c, l) ∈ letterEscapes → EscapeOf c ['\\', l]
  | two {ds} : (∀ l, (c, l) ∉ letterEscapes) → (c.toNat < 32 ∨ c.toNat = 127) → DigitsOf 2 c ds → EscapeOf c ('\\' :: 'x' :: ds)
  | four {ds} : (32 ≤ c.toNat ∧ c.toNat ≠ 127) → c.toNat < 65536 → DigitsOf 4 c ds → EscapeOf c ('\\' :: 'u' :: ds)
  | eight {ds} : 65536 ≤ c.toNat → DigitsOf 8 c ds → EscapeOf c ('\\' :: 'U' :: ds)

/-- A character as it is shown: itself if it can be printed (also a backslash and a double quote), else its escape. -/
inductive ShownChar (isPrint : Char → Bool) (c : Char) : Str → Prop
  | plain : c = '\\' ∨ c = '"' ∨ isPrint c = true → ShownChar isPrint c [c]
  | escaped {e} : c ≠ '\\' → c ≠ '"' → isPrint c = false → EscapeOf c e → ShownChar isPrint c e

/-- A string with the characters that cannot be printed replaced by their escapes. -/
def Shown (isPrint : Char → Bool) (s t : Str) : Prop := ∃ ps, List.Forall₂ (ShownChar isPrint) s ps ∧ t = ps.flatten

/-- The text between quotes: within single quotes there is a backslash before every single quote. -/
def betweenQuotes (q : Char) : Str → Str
  | [] => []
  | c :: t => (if c = '\'' ∧ q = '\'' then ['\\', c] else [c]) ++ betweenQuotes q t

end Verif.Spec
