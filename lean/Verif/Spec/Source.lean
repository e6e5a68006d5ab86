import Verif.Model.Lex
import Verif.Model.Types
import Mathlib.Data.List.Forall2
import Verif.Spec.IfArgs
/-!
# The tokens a tree was read from
-/
namespace Verif.Spec

/-- An unquoted token with this value. -/
def Mark (t : Tok) (v : Str) : Prop := t.quoted = false ∧ t.value = v

/-- A comment token; `text` is what follows the `#`. -/
def CommentTok (t : Tok) (text : Str) : Prop := Mark t ('#' :: text)

/-- A word or a quoted string: not a comment and none of the three characters that end a statement. -/
def WordTok (t : Tok) : Prop := (∀ text, ¬ CommentTok t text) ∧ ¬ Mark t c!"{" ∧ ¬ Mark t c!"}" ∧ ¬ Mark t c!";"

/-- The directive for a comment. -/
def CommentDir (d : Directive) (text : Str) (line : Int) : Prop :=
  d.directive = c!"#" ∧ d.line = line ∧ d.args = [] ∧ d.comment = some text ∧ d.block = none

/-- `Words mid args texts`: `mid` consists of words, with the values `args`, and comments, with the texts `texts`. -/
inductive Words : List Tok → List Str → List Str → Prop
  | nil : Words [] [] []
  | word {t mid args texts} : WordTok t → Words mid args texts → Words (t :: mid) (t.value :: args) texts
  | comment {t text mid args texts} : CommentTok t text → Words mid args texts → Words (t :: mid) args (text :: texts)

/-- The tokens `t :: mid` before the end of a statement, and the directive: its name, line and arguments.  Only the parentheses of an `if` that
is not a parameter of a map-like block are removed. -/
structure Heads (t : Tok) (mid : List Tok) (d : Directive) (texts : List Str) : Prop where
  word : WordTok t
  name : d.directive = t.value
  line : d.line = t.line
  noComment : d.comment = none
  args : ∃ args, Words mid args texts ∧
    if d.directive = c!"if" ∧ d.isMapBlockParameter = false then IfArgs args d.args else d.args = args

/-- The comments within a statement follow it, with its line, unless comments are not parsed or it is a parameter of a map-like block. -/
def Trailing (parseComments : Bool) (d : Directive) (texts : List Str) (cs : List Directive) : Prop :=
  if parseComments = true ∧ d.isMapBlockParameter = false then List.Forall₂ (fun c text => CommentDir c text d.line) cs texts else cs = []

/-- `Source pc ds toks`: the tokens `toks` are the source of the directives `ds`, in order and with the same nesting. -/
inductive Source (pc : Bool) : List Directive → List Tok → Prop
  | nil : Source pc [] []
  | comment {t text d ds toks} : pc = true → CommentTok t text → CommentDir d text t.line → Source pc ds toks → Source pc (d :: ds) (t :: toks)
  | skip {t text ds toks} : pc = false → CommentTok t text → Source pc ds toks → Source pc ds (t :: toks)
  | simple {t mid semi d texts cs ds toks} : Heads t mid d texts → d.block = none → Mark semi c!";" → Trailing pc d texts cs →
      Source pc ds toks → Source pc (d :: (cs ++ ds)) (t :: (mid ++ semi :: toks))
  | block {t mid opening inner closing d b texts cs ds toks} : Heads t mid d texts → d.block = some b → Mark opening c!"{" →
      Source pc b inner → Mark closing c!"}" → Trailing pc d texts cs →
      Source pc ds toks → Source pc (d :: (cs ++ ds)) (t :: (mid ++ opening :: (inner ++ closing :: toks)))

/-- The first token, comments aside, is a word. -/
def StartsWithWord (toks : List Tok) : Prop :=
  ∀ cs t rest, toks = cs ++ t :: rest → (∀ c ∈ cs, ∃ text, CommentTok c text) → ¬ (Mark t c!"{" ∨ Mark t c!"}" ∨ Mark t c!";")

/-- Every statement is ended by `;` or a block: comments aside, a `}` follows `;`, `{` or `}`. -/
def StatementsEnd (toks : List Tok) : Prop :=
  ∀ a t cs u b, toks = a ++ t :: (cs ++ u :: b) → (∀ c ∈ cs, ∃ text, CommentTok c text) → Mark u c!"}" →
    Mark t c!"{" ∨ Mark t c!"}" ∨ Mark t c!";" ∨ ∃ text, CommentTok t text

end Verif.Spec
