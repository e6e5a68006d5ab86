import Verif.Spec.Layout
/-!
# A tree of directives with a place for one more
-/
namespace Verif.Spec

/-- A place in a tree: among the directives before and after it, or in the block of a directive among others. -/
inductive Place
  | here (before after : List Directive)
  | within (before : List Directive) (parent : Directive) (place : Place) (after : List Directive)

/-- The tree with `d` at the place. -/
def Place.fill : Place → Directive → List Directive
  | .here before after, d => before ++ d :: after
  | .within before parent place after, d => before ++ { parent with block := some (place.fill d) } :: after

/-- The number of blocks the place is in. -/
def Place.depth : Place → Nat
  | .here _ _ => 0
  | .within _ _ place _ => place.depth + 1

/-- A directive that is rendered as name, arguments and block: it is not a comment and has no external builder. -/
def Ordinary (quote : Str → Str) (ext : Str → Option (Directive → Str)) (d : Directive) : Prop :=
  ¬ (d.directive = c!"#" ∧ d.comment ≠ none) ∧ ext (quote d.directive) = none

/-- The blocks that the place is in are rendered. -/
def Place.Rendered (quote : Str → Str) (ext : Str → Option (Directive → Str)) : Place → Prop
  | .here _ _ => True
  | .within _ parent place _ => Ordinary quote ext parent ∧ place.Rendered quote ext

/-- The line with which a comment after the directives is compared: that of the last directive which is neither a comment at the end of a line nor built by an external builder. -/
def lastLine (quote : Str → Str) (ext : Str → Option (Directive → Str)) (last : Int) : List Directive → Int
  | [] => last
  | d :: ds => lastLine quote ext (if CommentOn d last ∨ (ext (quote d.directive)).isSome then last else d.line) ds

end Verif.Spec
