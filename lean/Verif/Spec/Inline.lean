import Verif.Spec.Grammar
import Verif.Spec.Concat
import Mathlib.Logic.Relation
/-!
# Textual inclusion

`Inlined` replaces one include directive in a text by the texts of the files it stands for.
-/
namespace Verif.Spec

mutual
/-- The directive without lines and file names. -/
def plain : Directive → Directive
  | ⟨dd, _, dargs, _, di, dblock, dc, dm⟩ => ⟨dd, 0, dargs, [], di, plainOpt dblock, dc, dm⟩
def plainOpt : Option (List Directive) → Option (List Directive)
  | none => none
  | some ds => some (plainList ds)
/-- The directives without lines and file names. -/
def plainList : List Directive → List Directive
  | [] => []
  | d :: ds => plain d :: plainList ds
end

/-- After these tokens a statement may begin: comments aside, the last one is `;`, `{` or `}`, or there is none. -/
def AtStatement (toks : List Tok) : Prop :=
  ∀ a t cs, toks = a ++ t :: cs → (∀ c ∈ cs, ∃ text, CommentTok c text) → (∃ text, CommentTok t text) ∨ Mark t c!";" ∨ Mark t c!"{" ∨ Mark t c!"}"

/-- The tokens are an include directive with these arguments. -/
def IncludeStmt (args : List Str) (toks : List Tok) : Prop :=
  ∃ t mid semi, toks = t :: (mid ++ [semi]) ∧ WordTok t ∧ t.value = c!"include" ∧ Words mid args [] ∧ Mark semi c!";"

/-- The texts of files, one after the other. -/
def texts (text : Str → Option Str) (l : List Str) : Str := l.flatMap fun f => (text f).getD []

/-- After the text, a statement may begin: it is whole lines, comments aside the last token is `;`, `{` or `}`, or there is none; or this is the last token and the
text does not end with a quote, a backslash or a carriage return.  (`lex` gives the tokens of a text; it may complain that blocks are not closed.) -/
def Boundary (lex : Str → List Tok) (s : Str) : Prop :=
  WholeLines s ∧ AtStatement ((lex s).filter (·.error == none)) ∨
  (∃ toks m, (lex s).filter (·.error == none) = toks ++ [m] ∧ (Mark m c!";" ∨ Mark m c!"{" ∨ Mark m c!"}")) ∧
    ∃ s' c, s = s' ++ [c] ∧ c ≠ '"' ∧ c ≠ '\'' ∧ c ≠ '\\' ∧ c ≠ '\r'

/-- `Inlined lex names text a b`: there is an include directive in `a` that stands for some files, and `b` is `a` with the texts of these files instead of it. -/
inductive Inlined (lex : Str → List Tok) (names : List Str → Option (List Str)) (text : Str → Option Str) : Str → Str → Prop
  | stmt {pre stmt post : Str} {args files : List Str} : Boundary lex pre → Boundary lex stmt → IncludeStmt args (lex stmt) → (∀ t ∈ lex stmt, t.error = none) →
      names args = some files → files ≠ [] → (∀ f ∈ files, (text f).isSome = true) →
      Inlined lex names text (pre ++ (stmt ++ post)) (pre ++ (texts text files ++ post))

/-- The same with other lexers for some directives: these have `closed` what they read before the include directive, and read nothing of it (`quiet`). -/
inductive InlinedBy (lex : Str → List Tok) (closed quiet : Str → Prop) (names : List Str → Option (List Str)) (text : Str → Option Str) : Str → Str → Prop
  | stmt {pre stmt post : Str} {args files : List Str} : Boundary lex pre → closed pre → Boundary lex stmt → quiet stmt → IncludeStmt args (lex stmt) →
      (∀ t ∈ lex stmt, t.error = none) → names args = some files → files ≠ [] → (∀ f ∈ files, (text f).isSome = true) →
      InlinedBy lex closed quiet names text (pre ++ (stmt ++ post)) (pre ++ (texts text files ++ post))

/-- The include directives that are left stand for no files. -/
def NoneLeft (names : List Str → Option (List Str)) (toks : List Tok) : Prop :=
  ∀ a t mid args texts semi b, toks = a ++ t :: (mid ++ semi :: b) → AtStatement a → WordTok t → t.value = c!"include" → Words mid args texts → Mark semi c!";" →
    names args = some []

end Verif.Spec
