import Verif.Spec.Grammar
import Mathlib.Logic.Relation
/-!
# Configurations of several files

`Project` says which lists of files are a configuration: each file is one in the block context of the directive that includes it first, the files come in
the order in which they are first included, and the links of the include directives are the positions of the files.
-/
namespace Verif.Spec

mutual
/-- The tree with new links. -/
def setLinks (g : Str → List Str → Bool → Option (List Int)) : Directive → Directive
  | ⟨dd, dl, dargs, df, _, dblock, dc, dm⟩ => ⟨dd, dl, dargs, df, g dd dargs dm, setLinksOpt g dblock, dc, dm⟩
def setLinksOpt (g : Str → List Str → Bool → Option (List Int)) : Option (List Directive) → Option (List Directive)
  | none => none
  | some ds => some (setLinksList g ds)
def setLinksList (g : Str → List Str → Bool → Option (List Int)) : List Directive → List Directive
  | [] => []
  | d :: ds => setLinks g d :: setLinksList g ds
end

/-- The trees without links. -/
def unlink : List Directive → List Directive := setLinksList fun _ _ _ => none

/-- The files that a directive stands for, if it is an include directive. -/
def standsFor (names : List Str → Option (List Str)) (name : Str) (args : List Str) (param : Bool) : List Str :=
  if name = c!"include" ∧ param = false then (names args).getD [] else []

/-- The trees with the links of include directives to files; `files` are the files in order. -/
def link (names : List Str → Option (List Str)) (files : List Str) : List Directive → List Directive :=
  setLinksList fun name args param =>
    match standsFor names name args param with
    | [] => none
    | f :: fs => some ((f :: fs).map fun f => (files.idxOf f : Int))

/-- A file and the block context in which it is included. -/
abbrev Ref := Str × List Str

mutual
/-- The files that are included in a tree that stands in a block context, in the order of the text. -/
def refs (names : List Str → Option (List Str)) : List Str → Directive → List Ref
  | ctx, ⟨dd, _, dargs, _, _, dblock, _, dm⟩ => (standsFor names dd dargs dm).map (·, ctx) ++ refsOpt names (enter ctx dd) dblock
def refsOpt (names : List Str → Option (List Str)) : List Str → Option (List Directive) → List Ref
  | _, none => []
  | ctx, some ds => refsList names ctx ds
def refsList (names : List Str → Option (List Str)) : List Str → List Directive → List Ref
  | _, [] => []
  | ctx, d :: ds => refs names ctx d ++ refsList names ctx ds
end

/-- `known`, and those of `new` that are not known yet, each file once, as it comes first. -/
def collect (known new : List Ref) : List Ref := new.foldl (fun k r => if r.1 ∈ k.map (·.1) then k else k ++ [r]) known

/-- A file of a project: the context it is read in and its directives, with the links. -/
structure SourceFile where
  name : Str
  ctx : List Str
  tree : List Directive

/-- What a file includes. -/
def SourceFile.refs (names : List Str → Option (List Str)) (f : SourceFile) : List Ref := refsList names f.ctx f.tree

/-- The files of a payload with their contexts: `known` are the files included so far, the next file is the one at position `i`. -/
def arrange (names : List Str → Option (List Str)) (known : List Ref) (i : Nat) : List (Str × List Directive) → List SourceFile
  | [] => []
  | (f, tree) :: rest =>
    let ctx := (known[i]?.map (·.2)).getD []
    ⟨f, ctx, tree⟩ :: arrange names (collect known (refsList names ctx tree)) (i + 1) rest

/-- `fs` are the files of the project that starts with the file `start`; `toks` gives the tokens of the files there are. -/
structure Project (toks : Str → Option (List Tok)) (r : Rules) (start : Str) (fs : List SourceFile) : Prop where
  /-- the files in the order in which they are included first, in the context of that place -/
  files : fs.map (fun f => (f.name, f.ctx)) = collect [(start, [])] (fs.flatMap (·.refs r.names))
  /-- every file after the first is included in one before it -/
  earlier : ∀ pre f post, fs = pre ++ f :: post → pre ≠ [] → ∃ g ∈ pre, f.name ∈ (g.refs r.names).map (·.1)
  /-- every file is a configuration in its context -/
  conf : ∀ f ∈ fs, ∃ ts, toks f.name = some ts ∧ (∀ t ∈ ts, t.error = none) ∧ Conf r f.ctx (unlink f.tree) ts
  /-- the links are the positions of the included files -/
  linked : ∀ f ∈ fs, link r.names (fs.map (·.name)) f.tree = f.tree
  /-- no file includes itself -/
  acyclic : ∀ a, ¬ Relation.TransGen (fun a b => ∃ f ∈ fs, f.name = a ∧ b ∈ (f.refs r.names).map (·.1)) a a

/-- The files an include directive stands for: the first argument is a path, relative to `dir`, or a pattern. -/
def namesIn (isAbs : Str → Bool) (join : Str → Str → Str) (dir : Str) (isFile : Str → Bool) (matching : Str → Option (List Str)) :
    List Str → Option (List Str)
  | [] => none
  | a :: _ =>
    let path := if isAbs a then a else join dir a
    if '*' ∈ path ∨ '?' ∈ path ∨ '[' ∈ path then matching path
    else if isFile path then some [path] else none

end Verif.Spec
