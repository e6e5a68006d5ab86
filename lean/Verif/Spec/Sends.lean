import Verif.Spec.Expand
/-!
# What the goroutines of `Combined` send

A goroutine is started for every block and for every included config; it sends the directives of the block after the expansion of includes.  A block is read up to
the first error, which is sent on, and its reader ends; the errors of an included config are sent on, and its reader goes on.
-/
namespace Verif.Spec

/-- Something that is sent: a directive, or an error.  `left`: a goroutine from which this error came cannot get rid of what it sends after the error, since the
reader of a block has stopped reading. -/
inductive Sent
  | dir
  | err (left : Bool)

/-- There is an error. -/
def hasError : List Sent → Bool
  | [] => false
  | .dir :: m => hasError m
  | .err _ :: _ => true

/-- A reader that stops at the first error leaves a goroutine that still has something to send. -/
def leavesBehind : List Sent → Bool
  | [] => false
  | .dir :: m => leavesBehind m
  | .err left :: rest => left || !rest.isEmpty

/-- `Sends cs is ds m`: a goroutine that has to send the configs `is` and then the directives `ds` sends `m`, if all of it is read. -/
inductive Sends (cs : List Config) : List Int → List Directive → List Sent → Prop
  | done : Sends cs [] [] []
  /-- a missing config is an error and ends the goroutine -/
  | missing {i : Int} {is ds} : i ≥ cs.length → Sends cs (i :: is) ds [.err false]
  | config {i : Nat} {is ds c m1 m2} : cs[i]? = some c → Sends cs [] c.parsed m1 → Sends cs is ds m2 → Sends cs ((i : Int) :: is) ds (m1 ++ m2)
  | plain {d ds m} : d.block = none → ¬ IsInclude d → Sends cs [] ds m → Sends cs [] (d :: ds) (.dir :: m)
  | incl {d ds m} : d.block = none → IsInclude d → Sends cs (d.includes.getD []) ds m → Sends cs [] (d :: ds) m
  /-- an error in a block ends the goroutine -/
  | blockError {d ds b a} : d.block = some b → Sends cs [] b a → hasError a = true → Sends cs [] (d :: ds) [.err (leavesBehind a)]
  | block {d ds b a m} : d.block = some b → Sends cs [] b a → hasError a = false → ¬ IsInclude d → Sends cs [] ds m → Sends cs [] (d :: ds) (.dir :: m)
  | blockIncl {d ds b a m} : d.block = some b → Sends cs [] b a → hasError a = false → IsInclude d → Sends cs (d.includes.getD []) ds m →
      Sends cs [] (d :: ds) m

end Verif.Spec
