/-!
# File handles: opened and closed
-/
namespace Verif.Spec

/-- What happens to file handles.  The handle with number `k` is the one of the `k`-th call of open (from 0). -/
inductive HEvent where
  | open_ (k : Nat)
  /-- the call of open failed: there is no handle -/
  | failed (k : Nat)
  | close (k : Nat)
deriving Repr, DecidableEq, Inhabited

/-- Opening and closing like brackets: everything that is opened is closed later, the last one first. -/
inductive Nested : List HEvent → Prop
  | nil : Nested []
  | failed (k : Nat) {t} : Nested t → Nested (.failed k :: t)
  | handle (k : Nat) {t u} : Nested t → Nested u → Nested (.open_ k :: t ++ .close k :: u)

/-- The number of the call of open that an event is. -/
def HEvent.call? : HEvent → Option Nat
  | .open_ k => some k
  | .failed k => some k
  | .close _ => none

/-- The calls of open of a run, in order. -/
def calls (t : List HEvent) : List Nat := t.filterMap HEvent.call?

/-- The open handles after an event. -/
def holds (h : List Nat) : HEvent → List Nat
  | .open_ k => k :: h
  | .failed _ => h
  | .close k => h.erase k

/-- The handles that are open after the events, the one opened last first. -/
def held (t : List HEvent) : List Nat := t.foldl holds []

end Verif.Spec
