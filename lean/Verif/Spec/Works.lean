import Verif.Spec.Outcome
import Verif.Spec.Project
/-!
# What becomes of any configuration of several files

`KeepsIn` and `BreaksIn` are `Keeps` and `Breaks` with include directives that are followed; `Work` says which files are read, in which order and contexts, and
what is made of each, right or wrong.
-/
namespace Verif.Spec

/-- What the arguments of an include directive come to. -/
inductive Target
  /-- These files, maybe none. -/
  | files (names : List Str)
  /-- A file that there is not. -/
  | missing
  /-- There is no argument. -/
  | noName
  /-- A pattern that is not one. -/
  | badPattern
deriving DecidableEq

def Target.names : Target → Option (List Str)
  | .files l => some l
  | _ => none

/-- What arguments come to: the first is a path, relative to `dir`, or a pattern. -/
def lookIn (isAbs : Str → Bool) (join : Str → Str → Str) (dir : Str) (isFile : Str → Bool) (matching : Str → Option (List Str)) : List Str → Target
  | [] => .noName
  | a :: _ =>
    let path := if isAbs a then a else join dir a
    if '*' ∈ path ∨ '?' ∈ path ∨ '[' ∈ path then
      match matching path with
      | some l => .files l
      | none => .badPattern
    else if isFile path then .files [path] else .missing

/-- What a directive comes to: only include directives stand for files. -/
def targetOf (look : List Str → Target) (d : Directive) : Target :=
  if d.directive = c!"include" ∧ d.isMapBlockParameter = false then look d.args else .files []

/-- The lines of the include directives whose file there is not. -/
def missing (look : List Str → Target) (ds : List Directive) : List Int := ds.flatMap fun d => if targetOf look d = .missing then [d.line] else []

/-- The line of the error, if the directive ends the file. -/
def fatal (look : List Str → Target) (d : Directive) : Option (Option Int) :=
  match targetOf look d with
  | .noName => some (some d.line)
  | .badPattern => some none
  | _ => none

/-- The files that include directives stand for. -/
def namesOf (look : List Str → Target) : List Str → Option (List Str) := fun args => (look args).names

/-- The files a directive stands for (not those in its block), in the context `ctx`. -/
def refsHere (look : List Str → Target) (ctx : List Str) (d : Directive) : List Ref :=
  (standsFor (namesOf look) d.directive d.args d.isMapBlockParameter).map (·, ctx)

/-- Of the tokens the directives `ds` are kept (without links), there are errors on the lines `lines`, and `rest` is left. -/
inductive KeepsIn (look : List Str → Target) (r : Rules) : List Str → List Directive → List Int → List Tok → List Tok → Prop
  | eof {ctx} : KeepsIn look r ctx [] [] [] []
  | stop {ctx t ls toks rest} : Statement r ctx t toks (.stop ls rest) → KeepsIn look r ctx [] ls (t :: toks) rest
  | on {ctx t ds ls ds' ls' toks toks' rest} : Statement r ctx t toks (.on ds ls toks') → (∀ d ∈ ds, fatal look d = none) →
      KeepsIn look r ctx ds' ls' toks' rest → KeepsIn look r ctx (ds ++ ds') (ls ++ missing look ds ++ ls') (t :: toks) rest
  | block {ctx t d trailing b lb ds ls toks toks' toks2 rest} : Statement r ctx t toks (.enter d trailing toks') → fatal look d = none →
      KeepsIn look r (enter ctx d.directive) b lb toks' toks2 → KeepsIn look r ctx ds ls toks2 rest →
      KeepsIn look r ctx ({ d with block := some b } :: (trailing ++ ds)) (missing look [d] ++ lb ++ ls) (t :: toks) rest

/-- There are errors on the lines `lines`, and then an error on the line `last` that ends the file, or a crash (`none`); `found` was included before. -/
inductive BreaksIn (look : List Str → Target) (r : Rules) : List Str → List Int → Option (Option Int) → List Ref → List Tok → Prop
  | broken {ctx t line toks} : Statement r ctx t toks (.broken line) → BreaksIn look r ctx [] (some line) [] (t :: toks)
  | crash {ctx t toks} : Statement r ctx t toks .crash → BreaksIn look r ctx [] none [] (t :: toks)
  | fatal {ctx t d ds ls line toks toks'} : Statement r ctx t toks (.on ds ls toks') → d ∈ ds → fatal look d = some line →
      BreaksIn look r ctx [] (some line) [] (t :: toks)
  | fatalBlock {ctx t d trailing line toks toks'} : Statement r ctx t toks (.enter d trailing toks') → fatal look d = some line →
      BreaksIn look r ctx [] (some line) [] (t :: toks)
  | on {ctx t ds ls ls' last found toks toks'} : Statement r ctx t toks (.on ds ls toks') → (∀ d ∈ ds, Spec.fatal look d = none) →
      BreaksIn look r ctx ls' last found toks' →
      BreaksIn look r ctx (ls ++ missing look ds ++ ls') last (refsList (namesOf look) ctx ds ++ found) (t :: toks)
  | inside {ctx t d trailing lb last found toks toks'} : Statement r ctx t toks (.enter d trailing toks') → Spec.fatal look d = none →
      BreaksIn look r (enter ctx d.directive) lb last found toks' →
      BreaksIn look r ctx (missing look [d] ++ lb) last (refsHere look ctx d ++ found) (t :: toks)
  | after {ctx t d trailing b lb ls last found toks toks' toks2} : Statement r ctx t toks (.enter d trailing toks') → Spec.fatal look d = none →
      KeepsIn look r (enter ctx d.directive) b lb toks' toks2 → BreaksIn look r ctx ls last found toks2 →
      BreaksIn look r ctx (missing look [d] ++ lb ++ ls) last (refsHere look ctx d ++ refsList (namesOf look) (enter ctx d.directive) b ++ found) (t :: toks)

/-- What is made of a file. -/
inductive Reading
  /-- This tree (without links), with errors on these lines. -/
  | kept (tree : List Directive) (lines : List Int)
  /-- Nothing: errors on these lines, then one that ends the file, after these files were included. -/
  | broken (lines : List Int) (last : Option Int) (found : List Ref)

/-- A file that was read. -/
structure ReadFile where
  name : Str
  ctx : List Str
  reading : Reading

/-- What the file includes. -/
def ReadFile.refs (N : List Str → Option (List Str)) (f : ReadFile) : List Ref :=
  match f.reading with
  | .kept tree _ => refsList N f.ctx tree
  | .broken _ _ found => found

/-- The lines of its errors. -/
def ReadFile.lines (f : ReadFile) : List (Option Int) :=
  match f.reading with
  | .kept _ ls => ls.map some
  | .broken ls last _ => ls.map some ++ [last]

/-- Its tree, with the links to the files `files`. -/
def ReadFile.tree (N : List Str → Option (List Str)) (files : List Str) (f : ReadFile) : List Directive :=
  match f.reading with
  | .kept tree _ => link N files tree
  | .broken .. => []

/-- How it all ends. -/
inductive End
  | done
  /-- A pattern has given the name of a file that there is not. -/
  | noFile (name : Str)
  /-- A crash in this file, read in this context, after errors on these lines of it. -/
  | crash (name : Str) (ctx : List Str) (lines : List Int)

/-- All errors, in the order in which they are found. -/
def errorLines (fs : List ReadFile) (e : End) : List (Str × Option Int) :=
  fs.flatMap (fun f => f.lines.map (f.name, ·)) ++ match e with
    | .crash f _ ls => ls.map fun l => (f, some l)
    | _ => []

/-- `known` are the files included so far, each once, with the context of its first include; the first `i` of them have been read.  `fs` is what is made of the
others. -/
inductive Work (toks : Str → Option (List Tok)) (look : List Str → Target) (r : Rules) : List Ref → Nat → List ReadFile → End → Prop
  | done {known i} : known.length ≤ i → Work toks look r known i [] .done
  | noFile {known i f c} : known[i]? = some (f, c) → toks f = none → Work toks look r known i [] (.noFile f)
  | crash {known i f c ts ls found} : known[i]? = some (f, c) → toks f = some ts → BreaksIn look r c ls none found ts →
      Work toks look r known i [] (.crash f c ls)
  | kept {known i f c ts tree ls rest fs e} : known[i]? = some (f, c) → toks f = some ts → KeepsIn look r c tree ls ts rest →
      Work toks look r (collect known (refsList (namesOf look) c tree)) (i + 1) fs e → Work toks look r known i (⟨f, c, .kept tree ls⟩ :: fs) e
  | broken {known i f c ts ls last found fs e} : known[i]? = some (f, c) → toks f = some ts → BreaksIn look r c ls (some last) found ts →
      Work toks look r (collect known found) (i + 1) fs e → Work toks look r known i (⟨f, c, .broken ls last found⟩ :: fs) e

/-- There is a file that includes itself, maybe through others. -/
def Cyclic (N : List Str → Option (List Str)) (fs : List ReadFile) : Prop :=
  ∃ a, Relation.TransGen (fun a b => ∃ f ∈ fs, f.name = a ∧ b ∈ (f.refs N).map (·.1)) a a

end Verif.Spec
