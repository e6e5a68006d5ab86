import Verif.Spec.Expand
import Verif.Spec.Placed
/-!
# Where the files of a payload stand
-/
namespace Verif.Spec

/-- `Stands cs i ctx`: the directives of config `i` stand in the context `ctx` when includes are replaced by what they include.  The first config is not
in any block; another one stands wherever an include directive with its index does. -/
inductive Stands (cs : List Config) : Nat → List Str → Prop
  | main : Stands cs 0 []
  | incl {i j : Nat} {ctx c : List Str} {cfg : Config} {d : Directive} : Stands cs i ctx → cs[i]? = some cfg → At d ctx cfg.parsed c → IsInclude d →
      (j : Int) ∈ d.includes.getD [] → Stands cs j c

end Verif.Spec
