import Verif.Model.GenSrc
/-!
# internal/generator: the whole generator, with its output; cmd/generate/main.go

The file tree is given as the list of its entries in the order of `filepath.WalkDir`.  Of `html/template` only what the template uses is
modelled: text copied, `range` over a map in the order of its keys, `if`, and the HTML escaping of values.
-/
namespace Verif

/-! ## Reading the files -/

/-- The errors of `getMasksFromPath`. -/
inductive GenError where
  /-- an entry cannot be listed or a file cannot be read -/
  | read (path : Str)
  /-- generator_util.go:135 -/
  | mask (directive mask : Str)
  /-- generator_util.go:182 -/
  | noDirectives
deriving Repr, DecidableEq

/-- What `WalkDir` reports for a path. -/
inductive WalkEntry where
  /-- an error -/
  | bad
  | dir
  /-- a file; `none`: it cannot be read -/
  | file (text : Option Str)

/-- generator_util.go:151-176: the function given to `WalkDir`; only `.c` and `.cpp` files are read. -/
def walkStep (acc : MaskMap) (path : Str) : WalkEntry → Except GenError MaskMap
  | .bad => .error (.read path)
  | .dir => .ok acc
  | .file text =>
    if !(hasSuffix path c!".c" || hasSuffix path c!".cpp") then .ok acc
    else match text with
      | none => .error (.read path)
      | some text =>
        match masksFromText text with
        | .error (directive, mask) => .error (.mask directive mask)
        | .ok file => .ok (mergeFile acc file)

/-- `WalkDir` stops at the first error. -/
def walkAll (acc : MaskMap) : List (Str × WalkEntry) → Except GenError MaskMap
  | [] => .ok acc
  | e :: es =>
    match walkStep acc e.1 e.2 with
    | .error err => .error err
    | .ok acc => walkAll acc es

/-- generator_util.go:147-187 `getMasksFromPath`. -/
def getMasksFromPath (entries : List (Str × WalkEntry)) : Except GenError MaskMap :=
  match walkAll [] entries with
  | .error err => .error err
  | .ok m => if m.length == 0 then .error .noDirectives else .ok m

/-! ## The output -/

/-- The order of Go strings. UTF-8 keeps the order of code points. -/
def strLe : Str → Str → Bool
  | [], _ => true
  | _ :: _, [] => false
  | a :: s, b :: t => if a == b then strLe s t else a.val < b.val

def insertEntry (e : Str × List Mask) : MaskMap → MaskMap
  | [] => [e]
  | f :: m => if strLe e.1 f.1 then e :: f :: m else f :: insertEntry e m

/-- `range` over a map visits the keys in ascending order. -/
def sortMap (m : MaskMap) : MaskMap := m.foldr insertEntry []

/-- html/template's escaping in text (`htmlReplacementTable`). -/
def htmlChar (c : Char) : Str :=
  if c == '\x00' then c!"�"
  else if c == '"' then c!"&#34;"
  else if c == '&' then c!"&amp;"
  else if c == '\'' then c!"&#39;"
  else if c == '+' then c!"&#43;"
  else if c == '<' then c!"&lt;"
  else if c == '>' then c!"&gt;"
  else [c]

def htmlEscape (s : Str) : Str := s.flatMap htmlChar

/-- tmpl/support_file.tmpl:1-18, up to the name of the map. -/
def outHeader : Str :=
  c!"/**\n * Copyright (c) F5, Inc.\n *\n" ++
  c!" * This source code is licensed under the Apache License, Version 2.0 license found in the\n" ++
  c!" * LICENSE file in the root directory of this source tree.\n */\n\n" ++
  c!"// Code generated by generator; DO NOT EDIT.\n// All the definitions are extracted from the source code\n" ++
  c!"// Each bit mask describes these behaviors:\n//   - how many arguments the directive can take\n" ++
  c!"//   - whether or not it is a block directive\n" ++
  c!"//   - whether this is a flag (takes one argument that's either \"on\" or \"off\")\n" ++
  c!"//   - which contexts it's allowed to be in\n\npackage crossplane\n\nvar "

/-- support_file.tmpl:21-23: a mask. -/
def outMask (m : Mask) : Str := c!"\n        " ++ htmlEscape (joinStr c!" | " m) ++ c!","

/-- support_file.tmpl:19-25: a directive. -/
def outEntry (e : Str × List Mask) : Str := c!"\n    \"" ++ htmlEscape e.1 ++ c!"\": {" ++ e.2.flatMap outMask ++ c!"\n    },"

/-- generator.go:32-64 `GenerateConfig`. `override == none` is a nil map. -/
structure GenConfig where
  filter : List Str := []
  override : Option MaskMap := none
  mapName : Str := []
  funcName : Str := []
  comment : Str := []

/-- The template executed. -/
def outFile (cfg : GenConfig) (m : MaskMap) : Str :=
  outHeader ++ htmlEscape cfg.mapName ++ c!" = map[string][]uint{" ++ (sortMap m).flatMap outEntry ++ c!"\n}\n\n" ++
  (if cfg.comment != [] then c!"// " ++ htmlEscape cfg.comment else []) ++
  c!"\nfunc " ++ htmlEscape cfg.funcName ++ c!"(directive string) ([]uint, bool) {\n    m, ok := " ++ htmlEscape cfg.mapName ++
  c!"[directive]\n    return m, ok\n}\n"

/-- generator_util.go:188-224 `genFromSrcCode` (= generator.go:69 `Generate`). The writer does not fail. -/
def generate (entries : List (Str × WalkEntry)) (cfg : GenConfig) : Except GenError Str :=
  match getMasksFromPath entries with
  | .error err => .error err
  | .ok m => .ok (outFile cfg (filterOverride cfg.filter cfg.override m))

/-! ## cmd/generate -/

/-- The command line after `flag.Parse` has split it: the values of the flags with one value (empty if not given), and the
values of `-filter` and `-override` in order. -/
structure GenFlags where
  srcPath : Str := []
  configPath : Str := []
  mapName : Str := []
  funcName : Str := []
  comment : Str := []
  filters : List Str := []
  overrides : List Str := []

/-- How the program ends before `Generate`. -/
inductive MainError where
  | flag (value : Str) (e : OverrideError)
  | config
  | noSrcPath
  | noMapName
  | noFuncName
deriving Repr, DecidableEq

/-- `m[k] = v`. -/
def MaskMap.set (m : MaskMap) (k : Str) (v : List Mask) : MaskMap :=
  match m with
  | [] => [(k, v)]
  | e :: m => if e.1 == k then (k, v) :: m else e :: MaskMap.set m k v

/-- cmd_util.go:19-25 `filterFlag.Set` for each value; `none` is a nil map. The set is a list in the order of insertion. -/
def setFilters (acc : Option (List Str)) : List Str → Option (List Str)
  | [] => acc
  | v :: vs => setFilters (some (let l := acc.getD []; if l.contains v then l else l ++ [v])) vs

/-- cmd_util.go:88-101 `override.Set` for each value. -/
def setOverrides (acc : Option MaskMap) : List Str → Except MainError (Option MaskMap)
  | [] => .ok acc
  | v :: vs =>
    match parseOverride v with
    | .error e => .error (.flag v e)
    | .ok item => setOverrides (some ((acc.getD []).set item.1 item.2)) vs

/-- main.go:77-121: the configuration given to `Generate`. `readConfig` is main.go:20-34 `configFromFile`; `none` is an error. -/
def mainConfig (flags : GenFlags) (readConfig : Str → Option GenConfig) : Except MainError GenConfig :=
  match setOverrides none flags.overrides with
  | .error e => .error e
  | .ok ov =>
    let cfg := if flags.configPath != [] then readConfig flags.configPath else some {}
    match cfg with
    | none => .error .config
    | some cfg =>
      let cfg := if flags.mapName != [] then { cfg with mapName := flags.mapName } else cfg
      let cfg := if flags.funcName != [] then { cfg with funcName := flags.funcName } else cfg
      let cfg := match setFilters none flags.filters with
        | some l => { cfg with filter := l }
        | none => cfg
      let cfg := match ov with
        | some m => { cfg with override := some m }
        | none => cfg
      let cfg := if flags.comment != [] then { cfg with comment := flags.comment } else cfg
      if flags.srcPath == [] then .error .noSrcPath
      else if cfg.mapName == [] then .error .noMapName
      else if cfg.funcName == [] then .error .noFuncName
      else .ok cfg

end Verif
