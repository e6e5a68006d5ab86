import Verif.Model.Parse
import Verif.Spec.Masks
import Mathlib.Data.List.Forall2
/-!
# Directive sources with the same masks in another order
-/
namespace Verif.Spec

/-- The sources know the same names with the same masks; the order of the sources, that of the masks and repetitions are left out. -/
structure SameMasks (fs gs : List (Str → Option (List Nat))) : Prop where
  known : ∀ n, Known fs n ↔ Known gs n
  masks : ∀ n m, HasMask fs n m ↔ HasMask gs n m

/-- All masks of a name for one context (bits 16 and up; for any contexts if these are not checked) want a block, or all of them want a `;` and no parentheses. -/
def OneEnding (anyContext : Bool) (fs : List (Str → Option (List Nat))) : Prop :=
  ∀ n m m', HasMask fs n m → HasMask fs n m' → (anyContext = true ∨ ∃ b, 16 ≤ b ∧ m.testBit b = true ∧ m'.testBit b = true) →
    m.testBit 8 = m'.testBit 8 ∧ (m.testBit 8 = false → m.testBit 9 = false)

/-- The same error, or both are about the same statement in the same place and only the messages differ. -/
inductive OtherText : GoErr → GoErr → Prop
  | same {e} : OtherText e e
  | text {e : ParseError} {what : Str} : OtherText (.parse e) (.parse { e with what := what })

/-- The same config up to the messages of its errors. -/
structure OtherTextConfig (c c' : Config) : Prop where
  file : c'.file = c.file
  status : c'.status = c.status
  errors : List.Forall₂ (fun e e' => e'.line = e.line ∧ OtherText e.error e'.error) c.errors c'.errors
  parsed : c'.parsed = c.parsed

/-- The same payload up to the messages of errors.  (What an error callback returned is left out.) -/
structure OtherTextPayload (p p' : Payload) : Prop where
  status : p'.status = p.status
  errors : List.Forall₂ (fun e e' => e'.file = e.file ∧ e'.line = e.line ∧ OtherText e.error e'.error) p.errors p'.errors
  config : List.Forall₂ OtherTextConfig p.config p'.config

/-- The same results up to the messages of errors. -/
inductive OtherTextRes {α : Type} (R : α → α → Prop) : Res α → Res α → Prop
  | ok {a b} : R a b → OtherTextRes R (.ok a) (.ok b)
  | err {e e'} : OtherText e e' → OtherTextRes R (.err e) (.err e')
  | panic : OtherTextRes R .panic .panic
  | fuel : OtherTextRes R .fuel .fuel

end Verif.Spec
