import Verif.Spec.Source
/-!
# Trees without the directives of some names
-/
namespace Verif.Spec

mutual
/-- The directive with the directives of the names `L` left out of its block, at any depth.  The parameters of map blocks and comments are no directives. -/
def without (L : List Str) : Directive → Directive
  | ⟨dd, dl, dargs, df, di, dblock, dc, dm⟩ => ⟨dd, dl, dargs, df, di, withoutOpt L dblock, dc, dm⟩
def withoutOpt (L : List Str) : Option (List Directive) → Option (List Directive)
  | none => none
  | some ds => some (withoutList L ds)
/-- The directives that do not have one of the names `L`, at any depth. -/
def withoutList (L : List Str) : List Directive → List Directive
  | [] => []
  | d :: ds => if d.directive ∈ L ∧ d.isMapBlockParameter = false ∧ d.comment = none then withoutList L ds else without L d :: withoutList L ds
end

/-- Comments stand between statements: a comment is first or follows `;`, `{`, `}` or a comment. -/
def CommentsBetween (toks : List Tok) : Prop :=
  ∀ a t u b text, toks = a ++ t :: u :: b → CommentTok u text → Mark t c!";" ∨ Mark t c!"{" ∨ Mark t c!"}" ∨ ∃ text, CommentTok t text

end Verif.Spec
