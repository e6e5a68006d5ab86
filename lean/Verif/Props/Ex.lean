import Verif.Model.Parse
import Verif.Proofs.Dec
/-!
# Small file systems for the examples
-/
namespace Verif

/-- A file system with the given names and texts in which every glob matches all files, listed backwards. -/
def exEnv (files : List (Str × Str)) : Env where
  openFile := fun _ f => match files.lookup f with
    | some text => .ok { runes := text }
    | none => .error (.other (c!"open " ++ f ++ c!": no such file or directory"))
  glob := fun _ _ => .ok (files.map (·.1)).reverse
  isAbs := fun f => hasPrefix f c!"/"
  join := fun d f => d ++ c!"/" ++ f
  dir := fun _ => c!"/e"
  mapOrder := id

/-- A source with a few directives. -/
def exSource : MatchFunc := fun name =>
  if name = c!"http" then some [ngxMainConf ||| ngxConfBlock ||| ngxConfNoArgs]
  else if name = c!"server" then some [ngxHTTPMainConf ||| ngxConfBlock ||| ngxConfNoArgs]
  else if name = c!"location" then some [ngxHTTPSrvConf ||| ngxHTTPLocConf ||| ngxConfBlock ||| ngxConfTake12]
  else if name = c!"if" then some [ngxHTTPSrvConf ||| ngxHTTPLocConf ||| ngxConfBlock ||| ngxConfExpr ||| ngxConf1More]
  else if name = c!"map" then some [ngxHTTPMainConf ||| ngxConfBlock ||| ngxConfTake2]
  else if name = c!"user" then some [ngxMainConf ||| ngxConfTake12]
  else if name = c!"include" then some [ngxAnyConf ||| ngxConfTake1]
  else none

/-- Options with this source. -/
def exOpts : ParseOptions := { directiveSources := [exSource] }

/-- A directive without block, includes and comment. -/
def dir (name : Str) (line : Int) (args : List Str) : Directive := ⟨name, line, args, [], none, none, none, false⟩

/-- A directive with a block. -/
def blk (name : Str) (line : Int) (args : List Str) (b : List Directive) : Directive := ⟨name, line, args, [], none, some b, none, false⟩

/-- A resolved include. -/
def incl (line : Int) (arg : Str) (is : List Int) : Directive := ⟨c!"include", line, [arg], [], some is, none, none, false⟩

/-- A parameter of a map-like block. -/
def param (name : Str) (line : Int) (args : List Str) : Directive := ⟨name, line, args, [], none, none, none, true⟩

/-- The error of a statement. -/
def serr (what file : Str) (line : Int) (stmt ctx : Str) : GoErr :=
  .parse { what := what, file := some file, line := some line, statement := stmt, blockCtx := ctx }

/-- A payload without errors. -/
def okPayload (files : List (Str × List Directive)) : Payload :=
  { status := c!"ok", config := files.map fun f => { file := f.1, status := c!"ok", parsed := f.2 } }

/-- A payload with one config and one error. -/
def badPayload (file : Str) (line : Int) (e : GoErr) (parsed : List Directive) : Payload :=
  { status := c!"failed", errors := [{ file := file, line := some line, error := e }],
    config := [{ file := file, status := c!"failed", errors := [{ line := some line, error := e }], parsed := parsed }] }

end Verif
