import Verif.Model.Types
/-!
# Directives with the block context they stand in
-/
namespace Verif.Spec

/-- The context inside the block of a directive.  Within http all locations are alike. -/
def enter (ctx : List Str) (name : Str) : List Str :=
  if ctx.head? = some c!"http" ∧ name = c!"location" then [c!"http", c!"location"] else ctx ++ [name]

/-- `At d ctx ds c`: `d` occurs, at any depth, in `ds`, which stands in the context `ctx`; the context of `d` is `c`. -/
inductive At (d : Directive) : List Str → List Directive → List Str → Prop
  | here {ctx ds} : d ∈ ds → At d ctx ds ctx
  | deep {ctx ds d' b c} : d' ∈ ds → d'.block = some b → At d (enter ctx d'.directive) b c → At d ctx ds c

/-- A comment: a directive named `#` with a text. -/
def IsComment (d : Directive) : Prop := d.directive = c!"#" ∧ d.comment ≠ none

end Verif.Spec
