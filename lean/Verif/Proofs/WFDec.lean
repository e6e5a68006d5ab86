import Verif.Spec.Items
/-!
# Deciding well-formedness of items, for examples
-/
namespace Verif.Spec

instance (u : U) : Decidable u.wf := by
  cases u <;> unfold U.wf <;> infer_instance

instance (u : U) : Decidable (startsWord u) := by
  cases u <;> unfold startsWord <;> infer_instance

instance (p : WordPos) (items : List Item) : Decidable (wordEnd p items) := by
  unfold wordEnd; split <;> infer_instance

def decStart (us : List U) : Decidable (∃ u us', us = u :: us' ∧ startsWord u) :=
  match us with
  | [] => isFalse (by simp)
  | u :: us => decidable_of_iff (startsWord u) ⟨fun h => ⟨u, us, rfl, h⟩, by rintro ⟨u', us', e, h⟩; cases e; exact h⟩

def decRun (us : List U) (rest : List Item) : Decidable (∃ p, WordPos.run (.out false) us = some p ∧ wordEnd p rest) :=
  match h : WordPos.run (.out false) us with
  | none => isFalse (by simp)
  | some p => decidable_of_iff (wordEnd p rest) ⟨fun hw => ⟨p, rfl, hw⟩, by rintro ⟨p', e, hw⟩; cases e; exact hw⟩

instance decWF : (items : List Item) → Decidable (WF items)
  | [] => isTrue trivial
  | .space c :: rest => by
    have := decWF rest
    unfold WF; infer_instance
  | .special c :: rest => by
    have := decWF rest
    unfold WF; infer_instance
  | .word us :: rest => by
    have := decWF rest
    have := decStart us
    have := decRun us rest
    unfold WF; infer_instance
  | .quoted q us closed :: rest => by
    have := decWF rest
    unfold WF; infer_instance
  | .comment us e :: rest => by
    have := decWF rest
    unfold WF; infer_instance

instance (d : Str) : Decidable (Dangling d) := by unfold Dangling; infer_instance

end Verif.Spec
