import Verif.Spec.Placed
import Verif.Spec.Masks
/-!
# Trees that are built and parsed again
-/
namespace Verif.Spec

/-- The same directives with the same names, arguments, comments and blocks: only line, file, includes and the mark of parameters may differ. -/
inductive Same : List Directive → List Directive → Prop
  | nil : Same [] []
  | leaf {d e : Directive} {ds es} : d.directive = e.directive → d.args = e.args → d.comment = e.comment → d.block = none → e.block = none →
      Same ds es → Same (d :: ds) (e :: es)
  | node {d e : Directive} {b c ds es} : d.directive = e.directive → d.args = e.args → d.comment = e.comment → d.block = some b → e.block = some c →
      Same b c → Same ds es → Same (d :: ds) (e :: es)

/-- The values of `v` and of further arguments as they are read when they are written with a `)` at the end.  A string written with quotes keeps the
parenthesis from joining it. -/
def closing (quoted : Str → Bool) : Bool → Str → List Str → List Str
  | q, v, [] => if q then [v, c!")"] else [v ++ c!")"]
  | _, v, a :: as => v :: closing quoted (quoted a) a as

/-- The arguments of `if` as they are read from built text. -/
def ifTokens (quoted : Str → Bool) : List Str → List Str
  | [] => [c!"()"]
  | a :: as => closing quoted false ('(' :: a) as

/-- The arguments of a directive as they are read from built text. -/
def rawArgs (quoted : Str → Bool) (d : Directive) : List Str := if d.directive = c!"if" then ifTokens quoted d.args else d.args

/-- The character that ends a directive. -/
def termOf (d : Directive) : Str := if d.block = none then c!";" else c!"{"

/-- Inside the block of a map-like directive. -/
def InMap (c : List Str) (m : Str) : Prop := c.getLast? = some m ∧ m ∈ mapBlocks

end Verif.Spec
