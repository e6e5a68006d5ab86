import Verif.Spec.Source
import Verif.Spec.Items
/-!
# Token lists that are a sequence of statements
-/
namespace Verif.Spec

/-- Comments aside, `{` and `;` do not follow `;`, `{` or `}`. -/
def MarksApart (toks : List Tok) : Prop :=
  ∀ a t cs u b, toks = a ++ t :: (cs ++ u :: b) → (∀ c ∈ cs, ∃ text, CommentTok c text) → Mark u c!"{" ∨ Mark u c!";" →
    ¬ (Mark t c!"{" ∨ Mark t c!"}" ∨ Mark t c!";")

/-- The unquoted braces among the tokens, in order. -/
def braces (toks : List Tok) : List Char :=
  toks.flatMap fun t => if t.quoted = false ∧ (t.value = c!"{" ∨ t.value = c!"}") then t.value else []

end Verif.Spec
