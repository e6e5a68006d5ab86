import Verif.Model.Types
/-!
# Directive trees: contents without the nil/empty distinction
-/
namespace Verif.Spec

mutual
/-- The directive with nil `Includes` and `Block` replaced by empty ones, at every depth. -/
def fill : Directive → Directive
  | ⟨dd, dl, dargs, df, dincl, dblock, dcomm, dmap⟩ =>
    ⟨dd, dl, dargs, df, some (dincl.getD []), some (fillOpt dblock), dcomm, dmap⟩
def fillOpt : Option (List Directive) → List Directive
  | none => []
  | some ds => fillList ds
def fillList : List Directive → List Directive
  | [] => []
  | d :: ds => fill d :: fillList ds
end

mutual
/-- The directive with empty `Includes` and `Block` replaced by nil ones, at every depth. -/
def strip : Directive → Directive
  | ⟨dd, dl, dargs, df, dincl, dblock, dcomm, dmap⟩ =>
    ⟨dd, dl, dargs, df, if dincl = some [] then none else dincl, stripOpt dblock, dcomm, dmap⟩
def stripOpt : Option (List Directive) → Option (List Directive)
  | none => none
  | some [] => none
  | some (d :: ds) => some (strip d :: stripList ds)
def stripList : List Directive → List Directive
  | [] => []
  | d :: ds => strip d :: stripList ds
end

/-- No directive of the tree has an empty, non-nil `Includes` or `Block`. -/
inductive NoEmpty : Directive → Prop where
  | mk (d : Directive) : d.includes ≠ some [] → d.block ≠ some [] → (∀ ds, d.block = some ds → ∀ b ∈ ds, NoEmpty b) → NoEmpty d

/-- The error text. -/
def errorText (what : Str) (file : Option Str) (line : Option Int) : Str :=
  what ++ c!" in " ++ file.getD c!"(nofile)" ++
    (match line with | none => [] | some l => ':' :: decimal l)

end Verif.Spec
