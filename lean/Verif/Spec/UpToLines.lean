import Verif.Spec.Rebuild
/-!
# Trees that differ only in lines
-/
namespace Verif.Spec

/-- The same directives in every field but the lines: names, arguments, comments, files, include indices, marks of parameters and blocks are equal. -/
inductive UpToLines : List Directive → List Directive → Prop
  | nil : UpToLines [] []
  | leaf {d : Directive} {line : Int} {ds es} : d.block = none → UpToLines ds es → UpToLines (d :: ds) ({ d with line := line } :: es)
  | node {d : Directive} {line : Int} {b c ds es} : d.block = some b → UpToLines b c → UpToLines ds es →
      UpToLines (d :: ds) ({ d with line := line, block := some c } :: es)

end Verif.Spec
