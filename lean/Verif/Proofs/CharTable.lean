import Lean
import Verif.Model.Tables.Default
/-!
# Tables with their names as characters

`String.toList` of a literal is slow to evaluate in the kernel.  `chars% t` writes the table `t` with the names as lists of characters;
that it is the same table is then checked by the kernel (`kernel_rfl`), which knows a literal as `String.ofList` of its characters.
-/
namespace Verif
open Lean Meta Elab Term Tactic

/-- The expression of a string as a list of characters. -/
def charsExpr (s : String) : MetaM Expr := do
  let char := Lean.mkConst ``Char
  return s.toList.foldr (fun c e => mkApp3 (Lean.mkConst ``List.cons [Level.zero]) char (toExpr c) e) (mkApp (Lean.mkConst ``List.nil [Level.zero]) char)

/-- The elements of a list expression. -/
partial def listElems (e : Expr) : MetaM (List Expr) := do
  let e ← whnf e
  match e.getAppFnArgs with
  | (``List.nil, _) => return []
  | (``List.cons, #[_, hd, tl]) => return hd :: (← listElems tl)
  | _ => throwError "not a list: {e}"

/-- `chars% t`: the table `t` with the names as lists of characters. -/
elab "chars% " t:ident : term => do
  let e ← elabTerm t none
  let elems ← listElems e
  let strT := mkApp (Lean.mkConst ``List [Level.zero]) (Lean.mkConst ``Char)
  let natsT := mkApp (Lean.mkConst ``List [Level.zero]) (Lean.mkConst ``Nat)
  let pairT := mkApp2 (Lean.mkConst ``Prod [Level.zero, Level.zero]) strT natsT
  let mut out := mkApp (Lean.mkConst ``List.nil [Level.zero]) pairT
  for x in elems.reverse do
    match x.getAppFnArgs with
    | (``Prod.mk, #[_, _, n, ms]) =>
      match n with
      | .lit (.strVal s) =>
        let pair := mkApp4 (Lean.mkConst ``Prod.mk [Level.zero, Level.zero]) strT natsT (← charsExpr s) ms
        out := mkApp3 (Lean.mkConst ``List.cons [Level.zero]) pairT pair out
      | _ => throwError "not a literal: {n}"
    | _ => throwError "not a pair: {x}"
  return out

/-- Closes `a = b` with reflexivity, checked by the kernel only. -/
elab "kernel_rfl" : tactic => do
  let g ← getMainGoal
  match (← g.getType).getAppFnArgs with
  | (``Eq, #[α, l, _]) => g.assign (mkApp2 (Lean.mkConst ``Eq.refl [← getLevel α]) α l)
  | _ => throwError "not an equation"

/-- A table with the names as characters. -/
abbrev CharTable := List (List Char × List Nat)
/-- The same table with strings. -/
def CharTable.toDir (t : CharTable) : DirTable := t.map fun e => (String.ofList e.1, e.2)

end Verif
