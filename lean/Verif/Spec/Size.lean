import Verif.Model.Lex
import Verif.Model.Types
/-!
# Sizes

The size of a tree is the number of characters in its names, arguments and comments, plus one for every name and argument.
-/
namespace Verif.Spec

/-- The size of strings: their characters, and one for each. -/
def strsSize (l : List Str) : Nat := (l.map fun s => s.length + 1).sum

mutual
/-- The size of a directive. -/
def size : Directive → Nat
  | ⟨dd, _, dargs, _, _, dblock, dc, _⟩ => dd.length + 1 + strsSize dargs + (dc.getD []).length + sizeOpt dblock
def sizeOpt : Option (List Directive) → Nat
  | none => 0
  | some ds => sizeList ds
def sizeList : List Directive → Nat
  | [] => 0
  | d :: ds => size d + sizeList ds
end

/-- The size of tokens. -/
def toksSize (toks : List Tok) : Nat := strsSize (toks.map (·.value))

end Verif.Spec
