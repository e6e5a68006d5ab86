import Verif.Model.Chan
/-!
# What a reader sees of a stream of tokens
-/
namespace Verif.Spec

/-- The state of a reader after `n` receives from the stream `toks` (which is followed by "closed" forever). -/
def feed {σ : Type} (R : Reader σ) (s : σ) : List Tok → Nat → σ
  | _, 0 => s
  | [], n + 1 => feed R (R.step s none) [] n
  | t :: ts, n + 1 => feed R (R.step s (some t)) ts n

end Verif.Spec
