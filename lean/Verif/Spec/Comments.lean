import Verif.Model.Types
/-!
# Trees without comments, trees with file names
-/
namespace Verif.Spec

mutual
/-- The directives without the comments, at any depth. -/
def dropComments : List Directive → List Directive
  | [] => []
  | d :: ds => if d.directive = c!"#" ∧ d.comment.isSome = true then dropComments ds else dropInside d :: dropComments ds
def dropInside : Directive → Directive
  | ⟨dd, dl, dargs, df, dincl, dblock, dcomm, dmap⟩ => ⟨dd, dl, dargs, df, dincl, dropBlock dblock, dcomm, dmap⟩
def dropBlock : Option (List Directive) → Option (List Directive)
  | none => none
  | some ds => some (dropComments ds)
end

mutual
/-- The directives with `File` set to `f`, at any depth. -/
def tagFile (f : Str) : List Directive → List Directive
  | [] => []
  | d :: ds => tagDir f d :: tagFile f ds
def tagDir (f : Str) : Directive → Directive
  | ⟨dd, dl, dargs, _, dincl, dblock, dcomm, dmap⟩ => ⟨dd, dl, dargs, f, dincl, tagBlock f dblock, dcomm, dmap⟩
def tagBlock (f : Str) : Option (List Directive) → Option (List Directive)
  | none => none
  | some ds => some (tagFile f ds)
end

/-- A payload without the comments. -/
def _root_.Verif.Payload.dropComments (p : Payload) : Payload :=
  { p with config := p.config.map fun c => { c with parsed := Spec.dropComments c.parsed } }

/-- A payload whose directives carry the names of the files of their configs. -/
def _root_.Verif.Payload.tagFiles (p : Payload) : Payload :=
  { p with config := p.config.map fun c => { c with parsed := tagFile c.file c.parsed } }

end Verif.Spec
