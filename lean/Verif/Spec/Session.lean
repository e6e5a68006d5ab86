import Verif.Model.BuildState
/-!
# Calls that each have options of their own

What a program with one options value should do: every call behaves as with fresh options that have the values last assigned to the exported fields.
-/
namespace Verif.Spec

/-- The exported fields of the options. -/
structure Settings where
  indent : Int := 0
  tabs : Bool := false
  header : Bool := false
  builders : List RegisterBuilder := []

/-- New options with these fields. -/
def Settings.fresh (p : Settings) : BuildOptions := { indent := p.indent, tabs := p.tabs, header := p.header, builders := p.builders }

/-- The settings after an event: only assignments change them. -/
def Settings.after {σ : Type} (p : Settings) : Event σ → Settings
  | .setIndent n => { p with indent := n }
  | .setTabs b => { p with tabs := b }
  | .setHeader b => { p with header := b }
  | .setBuilders bs => { p with builders := bs }
  | _ => p

/-- The events one after the other, each with fresh options. -/
def apart {σ : Type} (isPrint : Char → Bool) : σ → Settings → List (Event σ) → Option (List (Option GoErr) × σ)
  | s, _, [] => some ([], s)
  | s, p, e :: es =>
    match e.call isPrint s p.fresh with
    | none => none
    | some (err, s, _) => (apart isPrint s (p.after e) es).map fun r => (err :: r.1, r.2)

/-- The builders are assigned only when there were none before. -/
def BuildersKept {σ : Type} (p : Settings) : List (Event σ) → Prop
  | [] => True
  | e :: es => (p.builders = [] ∨ (p.after e).builders = p.builders) ∧ BuildersKept (p.after e) es

end Verif.Spec
