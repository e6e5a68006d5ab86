import Verif.Model.Str
import Verif.Model.Tables.Bits
/-!
# internal/generator/generator_util.go and cmd/generate/cmd_util.go

Here a C file is given as the list of its definitions, each the text of the name and of the masks; how these are read from the
text of the file with regular expressions (generator_util.go:36-52, 103-128) is in `Model/GenSrc`.
-/
namespace Verif

/-- generator_util.go:27 `Mask`. -/
abbrev Mask := List Str

/-- A Go `map[string][]Mask` as an association list with distinct keys. -/
abbrev MaskMap := List (Str × List Mask)

/-- `m[k] = append(m[k], v...)`. -/
def MaskMap.append (m : MaskMap) (k : Str) (v : List Mask) : MaskMap :=
  match m with
  | [] => [(k, v)]
  | e :: m => if e.1 == k then (e.1, e.2 ++ v) :: m else e :: MaskMap.append m k v

/-- generator_util.go:170-172: merging the map of one file.  The order of iteration over the file's map is the order
of the list; the result does not depend on it as its keys are distinct (theorem in `Props/Gen`). -/
def mergeFile (acc : MaskMap) (file : MaskMap) : MaskMap :=
  file.foldl (fun m e => m.append e.1 e.2) acc

/-- generator_util.go:147-186 `getMasksFromPath`, given the maps of the C/C++ files in walk order; `none` is the
error for no directives. -/
def getMasks (files : List MaskMap) : Option MaskMap :=
  let m := files.foldl mergeFile []
  if m.length == 0 then none else some m

/-- generator_util.go:204-206: one entry. -/
def overrideEntry (ov : MaskMap) (e : Str × List Mask) : Str × List Mask :=
  match ov.lookup e.1 with
  | some newMasks => (e.1, newMasks)
  | none => e

/-- generator_util.go:194-209: filter and override.  `override == none` is a nil map. -/
def filterOverride (filter : List Str) (override : Option MaskMap) (m : MaskMap) : MaskMap :=
  let kept := if filter.length > 0 then m.filter (fun e => !filter.contains e.1) else m
  match override with
  | none => kept
  | some ov => kept.map (overrideEntry ov)

/-- generator_util.go:188-210: the map handed to the template. -/
def genMap (files : List MaskMap) (filter : List Str) (override : Option MaskMap) : Option MaskMap :=
  (getMasks files).map (filterOverride filter override)

/-- `strings.Split(s, sep)` for a one-character separator. -/
def splitOn1 (sep : Char) : Str → List Str
  | [] => [[]]
  | c :: cs =>
    if c == sep then [] :: splitOn1 sep cs
    else match splitOn1 sep cs with
      | [] => [[c]]
      | w :: ws => (c :: w) :: ws

/-- `strings.Cut(s, sep)` for a one-character separator; `none` if not found. -/
def cut1 (sep : Char) : Str → Option (Str × Str)
  | [] => none
  | c :: cs => if c == sep then some ([], cs) else (cut1 sep cs).map fun r => (c :: r.1, r.2)

/-- The errors of cmd_util.go:45, 51, 56, 67. -/
inductive OverrideError where
  | noColon | emptyName | emptyDefinition | emptyMask
deriving Repr, DecidableEq

/-- cmd_util.go:60-71: one mask. -/
def parseMask (s : Str) : Except OverrideError Mask :=
  let names := (splitOn1 '|' s).map trimSpace
  if names.any (· == []) then .error .emptyMask else .ok names

/-- cmd_util.go:39-76 `UnmarshalText`, into a fresh item. -/
def parseOverride (raw : Str) : Except OverrideError (Str × List Mask) :=
  match cut1 ':' raw with
  | none => .error .noColon
  | some (directive, definition) =>
    let directive := trimSpace directive
    if directive == [] then .error .emptyName
    else
      let definition := trimSpace definition
      if definition == [] then .error .emptyDefinition
      else do
        let masks ← (splitOn1 ',' definition).mapM parseMask
        .ok (directive, masks)

/-- generator_util.go:65-100 `ngxVarNameToGo`: the Go names emitted for C masks. -/
def ngxVarNameToGo : List (Str × Str) := [
  (c!"NGX_MAIL_MAIN_CONF", c!"ngxMailMainConf"),
  (c!"NGX_STREAM_MAIN_CONF", c!"ngxStreamMainConf"),
  (c!"NGX_CONF_TAKE1", c!"ngxConfTake1"),
  (c!"NGX_STREAM_UPS_CONF", c!"ngxStreamUpsConf"),
  (c!"NGX_HTTP_LIF_CONF", c!"ngxHTTPLifConf"),
  (c!"NGX_CONF_TAKE2", c!"ngxConfTake2"),
  (c!"NGX_HTTP_UPS_CONF", c!"ngxHTTPUpsConf"),
  (c!"NGX_CONF_TAKE23", c!"ngxConfTake23"),
  (c!"NGX_CONF_TAKE12", c!"ngxConfTake12"),
  (c!"NGX_HTTP_MAIN_CONF", c!"ngxHTTPMainConf"),
  (c!"NGX_HTTP_LMT_CONF", c!"ngxHTTPLmtConf"),
  (c!"NGX_CONF_TAKE1234", c!"ngxConfTake1234"),
  (c!"NGX_MAIL_SRV_CONF", c!"ngxMailSrvConf"),
  (c!"NGX_CONF_FLAG", c!"ngxConfFlag"),
  (c!"NGX_HTTP_SRV_CONF", c!"ngxHTTPSrvConf"),
  (c!"NGX_CONF_1MORE", c!"ngxConf1More"),
  (c!"NGX_ANY_CONF", c!"ngxAnyConf"),
  (c!"NGX_CONF_TAKE123", c!"ngxConfTake123"),
  (c!"NGX_MAIN_CONF", c!"ngxMainConf"),
  (c!"NGX_CONF_NOARGS", c!"ngxConfNoArgs"),
  (c!"NGX_CONF_2MORE", c!"ngxConf2More"),
  (c!"NGX_CONF_TAKE3", c!"ngxConfTake3"),
  (c!"NGX_HTTP_SIF_CONF", c!"ngxHTTPSifConf"),
  (c!"NGX_EVENT_CONF", c!"ngxEventConf"),
  (c!"NGX_CONF_BLOCK", c!"ngxConfBlock"),
  (c!"NGX_HTTP_LOC_CONF", c!"ngxHTTPLocConf"),
  (c!"NGX_STREAM_SRV_CONF", c!"ngxStreamSrvConf"),
  (c!"NGX_DIRECT_CONF", c!"ngxDirectConf"),
  (c!"NGX_CONF_TAKE13", c!"ngxConfTake13"),
  (c!"NGX_CONF_ANY", c!"ngxConfAny"),
  (c!"NGX_CONF_TAKE4", c!"ngxConfTake4"),
  (c!"NGX_CONF_TAKE5", c!"ngxConfTake5"),
  (c!"NGX_CONF_TAKE6", c!"ngxConfTake6"),
  (c!"NGX_CONF_TAKE7", c!"ngxConfTake7")]

/-- analyze.go:60-110: the constants that are declared, with their values. -/
def goConsts : List (Str × Nat) := [
  (c!"ngxConfNoArgs", ngxConfNoArgs),
  (c!"ngxConfTake1", ngxConfTake1),
  (c!"ngxConfTake2", ngxConfTake2),
  (c!"ngxConfTake3", ngxConfTake3),
  (c!"ngxConfTake4", ngxConfTake4),
  (c!"ngxConfTake5", ngxConfTake5),
  (c!"ngxConfTake6", ngxConfTake6),
  (c!"ngxConfBlock", ngxConfBlock),
  (c!"ngxConfExpr", ngxConfExpr),
  (c!"ngxConfFlag", ngxConfFlag),
  (c!"ngxConfAny", ngxConfAny),
  (c!"ngxConf1More", ngxConf1More),
  (c!"ngxConf2More", ngxConf2More),
  (c!"ngxConfTake12", ngxConfTake12),
  (c!"ngxConfTake13", ngxConfTake13),
  (c!"ngxConfTake23", ngxConfTake23),
  (c!"ngxConfTake34", ngxConfTake34),
  (c!"ngxConfTake123", ngxConfTake123),
  (c!"ngxConfTake1234", ngxConfTake1234),
  (c!"ngxDirectConf", ngxDirectConf),
  (c!"ngxMgmtMainConf", ngxMgmtMainConf),
  (c!"ngxMainConf", ngxMainConf),
  (c!"ngxEventConf", ngxEventConf),
  (c!"ngxMailMainConf", ngxMailMainConf),
  (c!"ngxMailSrvConf", ngxMailSrvConf),
  (c!"ngxStreamMainConf", ngxStreamMainConf),
  (c!"ngxStreamSrvConf", ngxStreamSrvConf),
  (c!"ngxStreamUpsConf", ngxStreamUpsConf),
  (c!"ngxHTTPMainConf", ngxHTTPMainConf),
  (c!"ngxHTTPSrvConf", ngxHTTPSrvConf),
  (c!"ngxHTTPLocConf", ngxHTTPLocConf),
  (c!"ngxHTTPUpsConf", ngxHTTPUpsConf),
  (c!"ngxHTTPSifConf", ngxHTTPSifConf),
  (c!"ngxHTTPLifConf", ngxHTTPLifConf),
  (c!"ngxHTTPLmtConf", ngxHTTPLmtConf),
  (c!"ngxHTTPOIDCConf", ngxHTTPOIDCConf),
  (c!"ngxAnyConf", ngxAnyConf)]

/-- generator_util.go:126-135: the text of a mask; the error is the name that is not known. -/
def translateMask (text : Str) : Except Str Mask :=
  (splitOn1 '|' text).mapM fun v =>
    match ngxVarNameToGo.lookup (trimSpace v) with
    | some g => .ok g
    | none => .error v

/-- generator_util.go:120-141: the definitions of a file, in order. -/
def masksFromDefs : List (Str × Str) → MaskMap → Except (Str × Str) MaskMap
  | [], m => .ok m
  | d :: ds, m =>
    match translateMask d.2 with
    | .error v => .error (trimSpace d.1, v)
    | .ok mask => masksFromDefs ds (m.append (trimSpace d.1) [mask])

end Verif
