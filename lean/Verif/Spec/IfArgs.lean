import Verif.Model.Str
/-!
# The arguments of `if` without their parentheses
-/
namespace Verif.Spec

/-- `s` without white space at its left end. -/
def LTrim (s r : Str) : Prop := ∃ w, s = w ++ r ∧ (∀ x ∈ w, isSpaceRune x = true) ∧ ∀ x xs, r = x :: xs → isSpaceRune x = false

/-- `s` without white space at its right end. -/
def RTrim (s r : Str) : Prop := ∃ w, s = r ++ w ∧ (∀ x ∈ w, isSpaceRune x = true) ∧ ∀ xs x, r = xs ++ [x] → isSpaceRune x = false

/-- The argument, or no argument if it is empty. -/
def nonempty (s : Str) : List Str := if s = [] then [] else [s]

/-- The first argument starts with `(` and the last ends with `)`. -/
def Parens (args : List Str) : Prop := (∃ a, args.head? = some ('(' :: a)) ∧ (∃ b, args.getLast? = some (b ++ [')']))

/-- `IfArgs args args'`: `args'` are the arguments without enclosing parentheses and white space next to them. -/
inductive IfArgs : List Str → List Str → Prop
  | plain {args} : ¬ Parens args → IfArgs args args
  | one {a b c} : LTrim a b → RTrim b c → c ≠ [] → IfArgs ['(' :: a ++ [')']] [c]
  | more {a a' mid b b'} : LTrim a a' → RTrim b b' → IfArgs (('(' :: a) :: mid ++ [b ++ [')']]) (nonempty a' ++ mid ++ nonempty b')

end Verif.Spec
