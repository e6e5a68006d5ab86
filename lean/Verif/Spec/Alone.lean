import Verif.Model.Parse
import Verif.Spec.Expand
/-!
# One file of a configuration, read alone
-/
namespace Verif.Spec

mutual
/-- The directive without `Includes`, at every depth. -/
def unlinked : Directive → Directive
  | ⟨name, line, args, file, _, block, comment, param⟩ => ⟨name, line, args, file, none, unlinkedOpt block, comment, param⟩
def unlinkedOpt : Option (List Directive) → Option (List Directive)
  | none => none
  | some ds => some (unlinkedList ds)
def unlinkedList : List Directive → List Directive
  | [] => []
  | d :: ds => unlinked d :: unlinkedList ds
end

/-- The second list is the first without some elements for which `P` is true. -/
inductive Without {α : Type} (P : α → Prop) : List α → List α → Prop
  | nil : Without P [] []
  | keep {a l m} : Without P l m → Without P (a :: l) (a :: m)
  | drop {a l m} : P a → Without P l m → Without P (a :: l) m

/-- The error of an include directive whose file cannot be opened. -/
def NotOpened (env : Env) (e : GoErr) : Prop :=
  ∃ (n : Nat) (path : Str) (x : GoErr) (pe : ParseError) (rest : Str), env.openFile n path = .error x ∧ e = .parse pe ∧ pe.what = x.error ∧ pe.statement = c!"include " ++ rest

/-- An error of an include directive that ends the reading of a file: the directive has no argument, the pattern is refused by Glob, or (if parsing stops at errors) the file cannot be opened. -/
inductive IncludeFault (env : Env) : GoErr → Prop
  | noArgs {pe : ParseError} {rest : Str} : pe.what = c!"invalid number of arguments in \"include\" directive in " ++ rest → IncludeFault env (.parse pe)
  | glob {n : Nat} {pattern : Str} {e : GoErr} : env.glob n pattern = .error e → IncludeFault env e
  | opening {e : GoErr} : NotOpened env e → IncludeFault env e

/-- No directive in a block has `Includes`. -/
def IncludesOnTop (ds : List Directive) : Prop := ∀ x ∈ ds, ∀ b, x.block = some b → ∀ d, Within d b → d.includes = none

end Verif.Spec
