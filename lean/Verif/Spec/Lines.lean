import Verif.Spec.Items
/-!
# The lines the lexer reports
-/
namespace Verif.Spec

/-- The line reported for each item other than whitespace.  `prev`: the line reported for the word that ends right here, if any.  It is the line where the
item starts, with two exceptions: a word that starts with an escaped line feed is reported on the next line, and a special character right after a word is reported with
the line of the word. -/
def tokenLines (line : Int) (prev : Option Int) : List Item → List Int
  | [] => []
  | .space c :: rest => tokenLines (line + nls [c]) none rest
  | .word us :: rest =>
    wordLine line us :: tokenLines (line + nls (textOf us)) (some (wordLine line us)) rest
  | .special _ :: rest => prev.getD line :: tokenLines line none rest
  | i :: rest => line :: tokenLines (line + nls i.text) none rest

/-- No word starts with an escaped line feed, and no special character comes right after a word with a line feed. -/
def LinesPlain (items : List Item) : Prop :=
  ∀ a us b, items = a ++ .word us :: b → us.head? ≠ some (.esc '\n') ∧ ('\n' ∈ textOf us → ∀ c b', b ≠ .special c :: b')

end Verif.Spec
