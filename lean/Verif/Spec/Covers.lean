import Verif.Spec.Masks
/-!
# When one set of directive tables admits what another admits
-/
namespace Verif.Spec

/-- The sources `new` admit every statement that `old` admits, for the names in `P`: each mask of `old` has, for each of its contexts (bits 16 and up), a
mask of `new` for the same name and context that admits at least the same endings and arguments. -/
structure Covers (P : Str → Prop) (old new : List (Str → Option (List Nat))) : Prop where
  known : ∀ name, P name → Known old name → Known new name
  context : ∀ name m b, P name → HasMask old name m → 16 ≤ b → m.testBit b = true →
    ∃ m', HasMask new name m' ∧ m'.testBit b = true ∧ ∀ term args, MaskOk m term args → MaskOk m' term args
  anywhere : ∀ name m, P name → HasMask old name m → ∃ m', HasMask new name m' ∧ ∀ term args, MaskOk m term args → MaskOk m' term args

end Verif.Spec
