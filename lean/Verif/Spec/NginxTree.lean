import Verif.Spec.Nginx
import Verif.Spec.Expand
import Verif.Model.Build
/-!
# Specification: what nginx should read from a tree
-/
namespace Verif.Spec

/-- What a token means to nginx: its value, and whether it is one of `;`, `{`, `}`. -/
def NgxTok.meaning : NgxTok → Str × Bool
  | .word raw _ => (ngxValue raw, false)
  | .special c => ([c], true)

/-- A closing parenthesis after the last parameter. -/
def closeLast (a : Str) : List Str → List Str
  | [] => [a ++ c!")"]
  | b :: as => a :: closeLast b as

/-- The parameters of `if`: parentheses around them all. -/
def parenWords : List Str → List Str
  | [] => [c!"()"]
  | a :: as => closeLast ('(' :: a) as

/-- Name and arguments as nginx sees them. -/
def ngxParams (name : Str) (args : List Str) : List Str := name :: if name = c!"if" then parenWords args else args

mutual
/-- The tokens of a tree; comments are nothing. -/
def ngxTree : List Directive → List (Str × Bool)
  | [] => []
  | d :: ds => ngxDir d ++ ngxTree ds
def ngxDir : Directive → List (Str × Bool)
  | ⟨dd, _, dargs, _, _, dblock, dcomm, _⟩ => if dd = c!"#" ∧ dcomm.isSome then [] else (ngxParams dd dargs).map (·, false) ++ ngxBody dblock
def ngxBody : Option (List Directive) → List (Str × Bool)
  | none => [(c!";", true)]
  | some ds => (c!"{", true) :: (ngxTree ds ++ [(c!"}", true)])
end

/-- Characters that are written such that nginx reads them: printable ones other than the backslash, and tabs and ends of lines, which nginx knows as escapes. -/
def NgxChar (isPrint : Char → Bool) (c : Char) : Prop := c ≠ '\\' ∧ (isPrint c = true ∨ c = '\t' ∨ c = '\n' ∨ c = '\r' ∨ c = '"')

/-- Strings of such characters that do not start with a number sign. -/
def NgxString (isPrint : Char → Bool) (s : Str) : Prop := (∀ c ∈ s, NgxChar isPrint c) ∧ s.head? ≠ some '#'

/-- Directives that nginx reads as they are meant: comments of one line, and directives of such strings; the arguments of `if` need no quotes. -/
def NgxFine (isPrint : Char → Bool) (d : Directive) : Prop :=
  if d.directive = c!"#" ∧ d.comment.isSome then '\n' ∉ d.comment.getD []
  else (∀ s ∈ d.directive :: d.args, NgxString isPrint s) ∧ (d.directive = c!"if" → ∀ a ∈ d.args, needsQuote a = false)

end Verif.Spec
