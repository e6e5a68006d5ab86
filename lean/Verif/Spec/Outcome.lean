import Verif.Spec.Recovery
import Verif.Spec.Causes
/-!
# What becomes of any file that is read alone

`Statement` says what is made of the next statement, whatever it is; `Keeps` and `Breaks` what is made of all tokens: a tree and the lines of errors, or an end by
an error or a crash.
-/
namespace Verif.Spec

/-- Opening braces count 1, closing braces and errors of the lexer -1. -/
def nest1 (t : Tok) : Int :=
  if t.error.isSome = true ∨ t.quoted = false ∧ t.value = c!"}" then -1 else if t.quoted = false ∧ t.value = c!"{" then 1 else 0

def nesting (toks : List Tok) : Int := (toks.map nest1).sum

/-- `rest` is what is left after the `}` (or the error of the lexer) that closes the block whose contents `toks` starts with, or nothing if it is not closed. -/
def Past (toks rest : List Tok) : Prop :=
  (∃ over, toks = over ++ rest ∧ nesting over = -1 ∧ ∀ p, p <+: over → p ≠ over → 0 ≤ nesting p) ∨ (rest = [] ∧ ∀ p, p <+: toks → 0 ≤ nesting p)

/-- What is left after a statement that ends in `term`, and its block, if any. -/
def After (term : Tok) (toks rest : List Tok) : Prop := if term.value = c!"{" then Past toks rest else rest = toks

/-- All masks of a directive, in the order of the sources. -/
def Rules.masks (r : Rules) (name : Str) : List Nat := r.sources.flatMap fun f => (f name).getD []

/-- The rejected statement is said to lack a `;`: this is so of the last mask that is for this context; or the directive is unknown and has an odd name. -/
def Rules.Unended (r : Rules) (ctx : List Str) (name : Str) (args : List Str) (term : Str) : Prop :=
  (r.strict = true ∧ ¬ Known r.sources name ∧ OddName name) ∨
  (Known r.sources name ∧ term ≠ c!";" ∧ ∃ b m, contextBit (pathOf ctx) = some b ∧
    ((r.masks name).filter fun m => r.skipCtx || m.testBit b).getLast? = some m ∧ m.testBit 8 = false ∧ (m.testBit 9 = true → InParens args))

/-- The line of an error of the lexer. -/
def tokLine (t : Tok) : Option Int :=
  match t.error with
  | some (.parse e) => e.line
  | _ => some t.line

/-- What is made of a statement. -/
inductive Outcome
  /-- These directives, errors on these lines, and this is next. -/
  | on (ds : List Directive) (lines : List Int) (next : List Tok)
  /-- The end of the block, with errors on these lines. -/
  | stop (lines : List Int) (next : List Tok)
  /-- The directive has a block, whose contents are next; these directives follow. -/
  | enter (d : Directive) (trailing : List Directive) (next : List Tok)
  /-- An error on this line (if it has one) that ends the file. -/
  | broken (line : Option Int)
  /-- A crash. -/
  | crash

/-- What is made of the statement that starts with `t` in the block context `ctx`. -/
inductive Statement (r : Rules) (ctx : List Str) (t : Tok) : List Tok → Outcome → Prop
  | error {toks} : t.error ≠ none → Statement r ctx t toks (.broken (tokLine t))
  | close {toks} : t.error = none → Mark t c!"}" → Statement r ctx t toks (.stop [] toks)
  | comment {text toks} : t.error = none → CommentTok t text →
      Statement r ctx t toks (.on (if r.comments then [{ directive := c!"#", line := t.line, args := [], comment := some text }] else []) [] toks)
  | premature {toks args texts} : HeadTok t → Words toks args texts → Statement r ctx t toks (.broken (some t.line))
  | param {m mid args texts semi toks} : HeadTok t → InMap ctx m → Words mid args texts → Mark semi c!";" → MapArgs m t.value args.length →
      Statement r ctx t (mid ++ semi :: toks) (.on [{ directive := t.value, line := t.line, args := args, isMapBlockParameter := true }] [] toks)
  | wrongParam {m mid args texts term toks rest} : HeadTok t → InMap ctx m → Words mid args texts → EndTok term →
      ¬ (term.value = c!";" ∧ MapArgs m t.value args.length) → After term toks rest → Statement r ctx t (mid ++ term :: toks) (.on [] [t.line] rest)
  | ignored {mid args texts term toks rest} : HeadTok t → (∀ m, ¬ InMap ctx m) → t.value ∈ r.ignore → Words mid args texts → EndTok term →
      After term toks rest → Statement r ctx t (mid ++ term :: toks) (.on [] [] rest)
  | simple {mid args args' texts term toks} : HeadTok t → (∀ m, ¬ InMap ctx m) → t.value ∉ r.ignore → Words mid args texts → EndTok term →
      r.Ok ctx t.value args term.value → StmtArgs t.value args args' → term.value ≠ c!"{" →
      Statement r ctx t (mid ++ term :: toks)
        (.on ({ directive := t.value, line := t.line, args := args' } :: (if r.comments then commentsAt t.line texts else [])) [] toks)
  | block {mid args args' texts opening toks} : HeadTok t → (∀ m, ¬ InMap ctx m) → t.value ∉ r.ignore → Words mid args texts → Mark opening c!"{" →
      r.Ok ctx t.value args c!"{" → StmtArgs t.value args args' →
      Statement r ctx t (mid ++ opening :: toks)
        (.enter { directive := t.value, line := t.line, args := args' } (if r.comments then commentsAt t.line texts else []) toks)
  | crash {mid args texts term toks} : HeadTok t → (∀ m, ¬ InMap ctx m) → t.value ∉ r.ignore → Words mid args texts → EndTok term →
      r.Ok ctx t.value args term.value → (∀ args', ¬ StmtArgs t.value args args') → Statement r ctx t (mid ++ term :: toks) .crash
  /-- A wrong statement ended by `}` for want of a `;`: the block ends too. -/
  | wrongStop {mid args texts closing toks} : HeadTok t → (∀ m, ¬ InMap ctx m) → t.value ∉ r.ignore → Words mid args texts → Mark closing c!"}" →
      ¬ r.Ok ctx t.value args c!"}" → r.Unended ctx t.value args c!"}" → Statement r ctx t (mid ++ closing :: toks) (.stop [t.line] toks)
  /-- A wrong statement said to lack a `;`: its block is left out. -/
  | wrongSkip {mid args texts term toks rest} : HeadTok t → (∀ m, ¬ InMap ctx m) → t.value ∉ r.ignore → Words mid args texts → EndTok term →
      term.value ≠ c!"}" → ¬ r.Ok ctx t.value args term.value → r.Unended ctx t.value args term.value → Past toks rest →
      Statement r ctx t (mid ++ term :: toks) (.on [] [t.line] rest)
  /-- A statement that is wrong for another reason: what follows its end is taken for the next statement, also the contents of a block. -/
  | wrong {mid args texts term toks} : HeadTok t → (∀ m, ¬ InMap ctx m) → t.value ∉ r.ignore → Words mid args texts → EndTok term →
      ¬ r.Ok ctx t.value args term.value → ¬ r.Unended ctx t.value args term.value → Statement r ctx t (mid ++ term :: toks) (.on [] [t.line] toks)

/-- `Keeps r ctx ds lines toks rest`: of the tokens `toks`, up to the end of the block or file, the directives `ds` are kept, there are errors on the lines `lines`,
and `rest` is left. -/
inductive Keeps (r : Rules) : List Str → List Directive → List Int → List Tok → List Tok → Prop
  | eof {ctx} : Keeps r ctx [] [] [] []
  | stop {ctx t ls toks rest} : Statement r ctx t toks (.stop ls rest) → Keeps r ctx [] ls (t :: toks) rest
  | on {ctx t ds ls ds' ls' toks toks' rest} : Statement r ctx t toks (.on ds ls toks') → Keeps r ctx ds' ls' toks' rest →
      Keeps r ctx (ds ++ ds') (ls ++ ls') (t :: toks) rest
  | block {ctx t d trailing b lb ds ls toks toks' toks2 rest} : Statement r ctx t toks (.enter d trailing toks') →
      Keeps r (enter ctx d.directive) b lb toks' toks2 → Keeps r ctx ds ls toks2 rest →
      Keeps r ctx ({ d with block := some b } :: (trailing ++ ds)) (lb ++ ls) (t :: toks) rest

/-- `Breaks r ctx lines last toks`: there are errors on the lines `lines`, and then an error on the line `last` that ends the file, or a crash (`none`). -/
inductive Breaks (r : Rules) : List Str → List Int → Option (Option Int) → List Tok → Prop
  | broken {ctx t line toks} : Statement r ctx t toks (.broken line) → Breaks r ctx [] (some line) (t :: toks)
  | crash {ctx t toks} : Statement r ctx t toks .crash → Breaks r ctx [] none (t :: toks)
  | on {ctx t ds ls ls' last toks toks'} : Statement r ctx t toks (.on ds ls toks') → Breaks r ctx ls' last toks' →
      Breaks r ctx (ls ++ ls') last (t :: toks)
  | inside {ctx t d trailing lb last toks toks'} : Statement r ctx t toks (.enter d trailing toks') → Breaks r (enter ctx d.directive) lb last toks' →
      Breaks r ctx lb last (t :: toks)
  | after {ctx t d trailing b lb ls last toks toks' toks2} : Statement r ctx t toks (.enter d trailing toks') →
      Keeps r (enter ctx d.directive) b lb toks' toks2 → Breaks r ctx ls last toks2 → Breaks r ctx (lb ++ ls) last (t :: toks)

end Verif.Spec
