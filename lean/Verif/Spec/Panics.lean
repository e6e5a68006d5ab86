import Verif.Spec.Layout
/-!
# Lines that cannot be indented
-/
namespace Verif.Spec

/-- For a negative indent only lines without a margin can be written in blanks, and in tabs only those up to depth 100. -/
def TooDeep (indent : Int) (tabs : Bool) (l : Line) : Prop := indent < 0 ∧ if tabs then 100 < l.depth else 0 < l.depth

instance (indent : Int) (tabs : Bool) (l : Line) : Decidable (TooDeep indent tabs l) := by unfold TooDeep; infer_instance

end Verif.Spec
