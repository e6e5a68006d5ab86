import Verif.Spec.Grammar
/-!
# What errors are about

`Cause` says what there must be in the tokens of a file for an error: an error of the lexer, a statement without an end, or a wrong statement.
-/
namespace Verif.Spec

/-- The first token of a statement: not a closing brace and not a comment. -/
def HeadTok (t : Tok) : Prop := t.error = none ∧ ¬ Mark t c!"}" ∧ ∀ text, ¬ CommentTok t text

/-- The end of a statement. -/
def EndTok (t : Tok) : Prop := Mark t c!";" ∨ Mark t c!"{" ∨ Mark t c!"}"

/-- The words with a blank between them. -/
def headWords : List Str → Str
  | [] => []
  | [w] => w
  | w :: ws => w ++ ' ' :: headWords ws

/-- The innermost block. -/
def innermost (ctx : List Str) : Str := ctx.getLast?.getD c!"main"

/-- What is wrong with a statement in a context.  `missing args what`: the file or the files that `include` with these arguments stands for cannot be had, with the reason. -/
inductive Fault (r : Rules) (missing : List Str → Str → Prop) (ctx : List Str) (name : Str) (args : List Str) (term what : Str) : Prop
  /-- It is not a parameter of the map-like block. -/
  | param {m} : InMap ctx m → ¬ (term = c!";" ∧ MapArgs m name args.length) → Fault r missing ctx name args term what
  /-- It is not allowed there, or its arguments or its end are wrong, or it is unknown. -/
  | stmt : (∀ m, ¬ InMap ctx m) → name ∉ r.ignore → ¬ r.Ok ctx name args term → Fault r missing ctx name args term what
  /-- It is a right `include`, but what it stands for cannot be had. -/
  | incl : (∀ m, ¬ InMap ctx m) → name ∉ r.ignore → r.Ok ctx name args term → name = c!"include" → missing args what → Fault r missing ctx name args term what

/-- `Cause r missing badPattern file toks e`: there is a mistake in the tokens `toks` of the file for which the error `e`, with its file, line, statement and block, is right. -/
inductive Cause (r : Rules) (missing : Int → List Str → Str → Prop) (badPattern : Str → GoErr → Prop) (file : Str) (toks : List Tok) : GoErr → Prop
  /-- The lexer met a mistake. -/
  | lexer {pre t post e} {e' : ParseError} : toks = pre ++ t :: post → t.error = some (.parse e) →
      e'.what = e.what → e'.line = e.line → e'.file = some file → Cause r missing badPattern file toks (.parse e')
  /-- The text could not be read. -/
  | reader {pre t post m} {e' : ParseError} : toks = pre ++ t :: post → t.error = some (.other m) →
      e'.what = m → e'.line = some t.line → e'.file = some file → Cause r missing badPattern file toks (.parse e')
  /-- The last statement does not end. -/
  | premature {pre t post args texts} {e' : ParseError} : toks = pre ++ t :: post → HeadTok t → Words post args texts →
      e'.what = c!"premature end of file" → e'.line = some t.line → e'.file = some file → Cause r missing badPattern file toks (.parse e')
  /-- A statement is wrong in the context `ctx`. -/
  | wrong {pre t mid term post args texts ctx} {e' : ParseError} : toks = pre ++ t :: (mid ++ term :: post) → HeadTok t → Words mid args texts → EndTok term →
      Fault r (missing t.line) ctx t.value args term.value e'.what →
      e'.statement = t.value ++ ' ' :: headWords args → e'.blockCtx = innermost ctx → e'.line = some t.line → e'.file = some file →
      Cause r missing badPattern file toks (.parse e')
  /-- The pattern of an include is malformed. -/
  | pattern {pre t mid term post a args texts ctx e} : toks = pre ++ t :: (mid ++ term :: post) → HeadTok t → Words mid (a :: args) texts → EndTok term →
      (∀ m, ¬ InMap ctx m) → t.value ∉ r.ignore → r.Ok ctx t.value (a :: args) term.value → t.value = c!"include" → badPattern a e →
      Cause r missing badPattern file toks e

end Verif.Spec
