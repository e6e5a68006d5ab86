import Verif.Model.Utf8
/-!
# What it means to read a text from bytes
-/
namespace Verif.Spec

/-- The text read from a byte sequence: wherever the UTF-8 encoding of a character stands, that character is read;
a byte where no encoding of a character starts is read as U+FFFD. -/
inductive Decodes : List Nat → Str → Prop where
  | nil : Decodes [] []
  | char (c : Char) {bs : List Nat} {s : Str} : Decodes bs s → Decodes (utf8Char c ++ bs) (c :: s)
  | bad (b : Nat) {bs : List Nat} {s : Str} (h : ∀ c, ¬ utf8Char c <+: b :: bs) : Decodes bs s →
      Decodes (b :: bs) ('�' :: s)

end Verif.Spec
