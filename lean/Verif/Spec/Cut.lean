import Verif.Spec.Source
/-!
# A text that was cut off
-/
namespace Verif.Spec

/-- The token is the beginning of the other one: a word, a quoted string or a comment that goes on. -/
structure Begins (t t' : Tok) : Prop where
  value : t.value <+: t'.value
  line : t'.line = t.line
  quoted : t'.quoted = t.quoted
  noError : t.error = none ∧ t'.error = none
  started : t.value ≠ []
  noMark : ¬ Mark t c!"{" ∧ ¬ Mark t c!"}" ∧ ¬ Mark t c!";"
  sameKind : (∃ text, CommentTok t text) ↔ ∃ text, CommentTok t' text

/-- The token says that the text ended in a block. -/
def Unclosed (e : Tok) : Prop := e.value = [] ∧ e.quoted = false ∧ ∃ pe : ParseError, e.error = some (.parse pe) ∧ pe.what = c!"unexpected end of file, expecting \"}\""

/-- `Cut toks whole`: the tokens of a text that was cut off, and those of the whole text.  They are the same up to the cut; a token that was cut is shorter; a missing `}` is said
to be missing. -/
inductive Cut : List Tok → List Tok → Prop
  | same {t toks whole} : Cut toks whole → Cut (t :: toks) (t :: whole)
  | between {whole} : Cut [] whole
  | betweenOpen {e whole} : Unclosed e → Cut [e] whole
  | within {t t' whole} : Begins t t' → Cut [t] (t' :: whole)
  | withinOpen {t t' e whole} : Begins t t' → Unclosed e → Cut [t, e] (t' :: whole)

/-- The tree of a text that was cut off, and that of the whole text: its beginning, and maybe the beginning of a comment. -/
def CutTree (ds whole : List Directive) : Prop :=
  ds <+: whole ∨ ∃ before c rest text text', ds = before ++ [{ c with comment := some text }] ∧ whole = before ++ c :: rest ∧
    c.directive = c!"#" ∧ c.comment = some text' ∧ text <+: text'

end Verif.Spec
