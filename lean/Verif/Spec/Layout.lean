import Verif.Model.Types
/-!
# The lines of a configuration text

`quote` renders a name or argument; `ext` is the table of external builders, by rendered name.
-/
namespace Verif.Spec

/-- A line: its depth and the text after the margin. -/
structure Line where
  depth : Nat
  text : Str
deriving Repr, DecidableEq

/-- Words with a space between each two. -/
def spaced : List Str → Str
  | [] => []
  | a :: as => a ++ as.flatMap (' ' :: ·)

/-- Name and arguments of a directive; the arguments of `if` are in parentheses. -/
def headText (quote : Str → Str) (name : Str) (args : List Str) : Str :=
  if quote name = c!"if" then c!"if (" ++ spaced (args.map quote) ++ c!")" else spaced ((name :: args).map quote)

/-- A comment on the given line. -/
def CommentOn (d : Directive) (line : Int) : Prop := d.directive = c!"#" ∧ d.comment ≠ none ∧ d.line = line

instance (d : Directive) (line : Int) : Decidable (CommentOn d line) := by unfold CommentOn; infer_instance

mutual
/-- The lines of directives after a statement of line `last`: what continues the current line, and the further lines.  A comment of the line
of the statement before it is put at the end of its line. -/
def layout (quote : Str → Str) (ext : Str → Option (Directive → Str)) (depth : Nat) (last : Int) : List Directive → Str × List Line
  | [] => ([], [])
  | d :: ds =>
    if CommentOn d last then
      (c!" #" ++ d.comment.getD [] ++ (layout quote ext depth last ds).1, (layout quote ext depth last ds).2)
    else
      let rest := layout quote ext depth (if (ext (quote d.directive)).isSome then last else d.line) ds
      ([], layoutDir quote ext depth rest.1 d ++ rest.2)
/-- The lines of one directive; `tail` continues the last one. -/
def layoutDir (quote : Str → Str) (ext : Str → Option (Directive → Str)) (depth : Nat) (tail : Str) : Directive → List Line
  | ⟨dd, dl, dargs, df, dincl, dblock, dcomm, dmap⟩ =>
    match ext (quote dd) with
    | some b => [⟨depth, b ⟨dd, dl, dargs, df, dincl, dblock, dcomm, dmap⟩ ++ tail⟩]
    | none =>
      match (if dd = c!"#" then dcomm else none) with
      | some text => [⟨depth, '#' :: text ++ tail⟩]
      | none => layoutBlock quote ext depth tail (headText quote dd dargs) dl dblock
/-- The lines of a directive with the given head. -/
def layoutBlock (quote : Str → Str) (ext : Str → Option (Directive → Str)) (depth : Nat) (tail head : Str) (line : Int) :
    Option (List Directive) → List Line
  | none => [⟨depth, head ++ c!";" ++ tail⟩]
  | some ds =>
    ⟨depth, head ++ c!" {" ++ (layout quote ext (depth + 1) line ds).1⟩ :: (layout quote ext (depth + 1) line ds).2 ++ [⟨depth, '}' :: tail⟩]
end

/-- The lines of a whole file. -/
def fileLines (quote : Str → Str) (ext : Str → Option (Directive → Str)) (ds : List Directive) : List Line :=
  (if (layout quote ext 0 0 ds).1 = [] then [] else [⟨0, (layout quote ext 0 0 ds).1⟩]) ++ (layout quote ext 0 0 ds).2

/-- The text of a line: `indent` times its depth blanks, or its depth in tabs, and then the rest. -/
def Line.render (indent : Nat) (tabs : Bool) (l : Line) : Str :=
  (if tabs then List.replicate l.depth '\t' else List.replicate (l.depth * indent) ' ') ++ l.text

/-- Lines, separated by line feeds. -/
def joinLines (indent : Nat) (tabs : Bool) : List Line → Str
  | [] => []
  | l :: ls => l.render indent tabs ++ ls.flatMap fun l => '\n' :: l.render indent tabs

end Verif.Spec
