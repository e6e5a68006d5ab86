import Verif.Spec.Source
import Verif.Spec.UpToLines
/-!
# The words of a tree
-/
namespace Verif.Spec

mutual
/-- The words of a directive, with the marks that end statements and blocks (`true`).  A comment has none. -/
def dirWords : Directive → List (Str × Bool)
  | ⟨name, _, args, _, _, block, comment, _⟩ => if comment.isSome then [] else (name, false) :: (args.map fun a => (a, false)) ++ endWords block
def endWords : Option (List Directive) → List (Str × Bool)
  | none => [(c!";", true)]
  | some b => (c!"{", true) :: treeWords b ++ [(c!"}", true)]
/-- The words of a list of directives. -/
def treeWords : List Directive → List (Str × Bool)
  | [] => []
  | d :: ds => dirWords d ++ treeWords ds
end

/-- A comment. -/
def isComment (t : Tok) : Bool := !t.quoted && t.value.head? == some '#'

/-- One of the characters that end statements and blocks. -/
def isMark (t : Tok) : Bool := !t.quoted && (t.value == c!"{" || t.value == c!"}" || t.value == c!";")

/-- The words and marks of a text, without comments, lines and quotes. -/
def tokWords (toks : List Tok) : List (Str × Bool) := (toks.filter fun t => !isComment t).map fun t => (t.value, isMark t)

mutual
/-- No directive is an `if` (but as a parameter of a map-like block). -/
def NoIf : Directive → Prop
  | ⟨name, _, _, _, _, block, _, param⟩ => ¬ (name = c!"if" ∧ param = false) ∧ NoIfOpt block
def NoIfOpt : Option (List Directive) → Prop
  | none => True
  | some b => NoIfs b
def NoIfs : List Directive → Prop
  | [] => True
  | d :: ds => NoIf d ∧ NoIfs ds
end

end Verif.Spec
