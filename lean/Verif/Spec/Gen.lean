import Verif.Model.Str
import Mathlib.Data.List.Forall2
/-!
# The generator's inputs: definitions per file, and the override flag
-/
namespace Verif.Spec

/-- All masks that the files define for a name, in file order. -/
def allMasks (files : List (List (Str × List (List Str)))) (name : Str) : List (List Str) :=
  files.flatMap fun f => (f.filter (fun e => e.1 == name)).flatMap (·.2)

/-- Some file defines the name. -/
def Found (files : List (List (Str × List (List Str)))) (name : Str) : Prop :=
  ∃ f ∈ files, ∃ ms, (name, ms) ∈ f

/-- `s` is `t` with white space around it; `t` itself does not start or end with white space. -/
def Padded (t s : Str) : Prop :=
  (∃ w1 w2, s = w1 ++ t ++ w2 ∧ (∀ c ∈ w1, isSpaceRune c = true) ∧ (∀ c ∈ w2, isSpaceRune c = true)) ∧
  (∀ c, t.head? = some c → isSpaceRune c = false) ∧ (∀ c, t.getLast? = some c → isSpaceRune c = false)

/-- The pieces with a separator character in between. -/
def sepBy (sep : Char) : List Str → Str
  | [] => []
  | [x] => x
  | x :: y :: ys => x ++ sep :: sepBy sep (y :: ys)

/-- `s` writes the mask: its names, not empty, padded, separated by `|`. -/
def WritesMask (mask : List Str) (s : Str) : Prop :=
  ∃ ps, ps ≠ [] ∧ s = sepBy '|' ps ∧ List.Forall₂ Padded mask ps ∧ (∀ n ∈ mask, n ≠ []) ∧ ∀ p ∈ ps, '|' ∉ p ∧ ',' ∉ p

/-- `s` writes an override: name, colon, masks separated by commas. -/
def WritesOverride (name : Str) (masks : List (List Str)) (s : Str) : Prop :=
  ∃ n ps, s = n ++ ':' :: sepBy ',' ps ∧ ':' ∉ n ∧ Padded name n ∧ name ≠ [] ∧ ps ≠ [] ∧
    List.Forall₂ WritesMask masks ps

/-- The mask names of nginx's C headers, with the bits (see `Spec/Masks`) they stand for. -/
def cMasks : List (Str × List Nat) := [
  (c!"NGX_CONF_NOARGS", [0]), (c!"NGX_CONF_TAKE1", [1]), (c!"NGX_CONF_TAKE2", [2]), (c!"NGX_CONF_TAKE3", [3]),
  (c!"NGX_CONF_TAKE4", [4]), (c!"NGX_CONF_TAKE5", [5]), (c!"NGX_CONF_TAKE6", [6]), (c!"NGX_CONF_TAKE7", [7]),
  (c!"NGX_CONF_TAKE12", [1, 2]), (c!"NGX_CONF_TAKE13", [1, 3]), (c!"NGX_CONF_TAKE23", [2, 3]),
  (c!"NGX_CONF_TAKE123", [1, 2, 3]), (c!"NGX_CONF_TAKE1234", [1, 2, 3, 4]),
  (c!"NGX_CONF_BLOCK", [8]), (c!"NGX_CONF_FLAG", [10]), (c!"NGX_CONF_ANY", [11]), (c!"NGX_CONF_1MORE", [12]),
  (c!"NGX_CONF_2MORE", [13]), (c!"NGX_DIRECT_CONF", [16]),
  (c!"NGX_MAIN_CONF", [18]), (c!"NGX_EVENT_CONF", [19]), (c!"NGX_MAIL_MAIN_CONF", [20]), (c!"NGX_MAIL_SRV_CONF", [21]),
  (c!"NGX_STREAM_MAIN_CONF", [22]), (c!"NGX_STREAM_SRV_CONF", [23]), (c!"NGX_STREAM_UPS_CONF", [24]),
  (c!"NGX_HTTP_MAIN_CONF", [25]), (c!"NGX_HTTP_SRV_CONF", [26]), (c!"NGX_HTTP_LOC_CONF", [27]),
  (c!"NGX_HTTP_UPS_CONF", [28]), (c!"NGX_HTTP_SIF_CONF", [29]), (c!"NGX_HTTP_LIF_CONF", [30]),
  (c!"NGX_HTTP_LMT_CONF", [31]),
  (c!"NGX_ANY_CONF", [18, 19, 20, 21, 22, 23, 24, 25, 26, 27, 28, 29, 30, 31])]

/-- `c` is a padded name of a mask in the text of masks separated by `|`. -/
def NamesMask (text c : Str) : Prop :=
  ∃ ps, ps ≠ [] ∧ text = sepBy '|' ps ∧ (∀ p ∈ ps, '|' ∉ p) ∧ ∃ p ∈ ps, Padded c p

/-- The Go constants of `mask` have the values of the C names in `text`, one by one. -/
def Means (consts : List (Str × Nat)) (text : Str) (mask : List Str) : Prop :=
  ∃ ps, ps ≠ [] ∧ text = sepBy '|' ps ∧ (∀ p ∈ ps, '|' ∉ p) ∧
    List.Forall₂ (fun p g => ∃ c bits v, Padded c p ∧ cMasks.lookup c = some bits ∧ consts.lookup g = some v ∧
      v = (bits.map (2 ^ ·)).sum) ps mask

end Verif.Spec
