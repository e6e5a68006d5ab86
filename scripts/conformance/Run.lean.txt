import Verif
import Lean.Data.Json
open Verif Lean
def S (s : Str) : Json := Json.str (String.ofList s)
def optI : Option Int → Json | none => Json.null | some i => toJson i
def errJ : GoErr → Json
  | .parse e => Json.mkObj [("what", S e.what), ("file", match e.file with | none => Json.null | some f => S f), ("line", optI e.line), ("statement", S e.statement), ("blockCtx", S e.blockCtx), ("orig", match e.orig with | none => Json.null | some f => S f)]
  | .other m => Json.mkObj [("msg", S m)]
partial def dirJ (d : Directive) : Json := Json.mkObj [("directive", S d.directive), ("line", toJson d.line), ("args", Json.arr (d.args.map S).toArray), ("file", S d.file),
 ("includes", Json.arr ((d.includes.getD []).map toJson).toArray), ("block", match d.block with | none => Json.null | some b => Json.arr (b.map dirJ).toArray), ("comment", match d.comment with | none => Json.null | some c => S c), ("map", toJson d.isMapBlockParameter)]
def cfgJ (c : Config) : Json := Json.mkObj [("file", S c.file), ("status", S c.status), ("errors", Json.arr (c.errors.map (fun e => Json.mkObj [("line", optI e.line), ("error", errJ e.error)])).toArray), ("parsed", Json.arr (c.parsed.map dirJ).toArray)]
def payJ (p : Payload) : Json := Json.mkObj [("status", S p.status), ("errors", Json.arr (p.errors.map (fun e => Json.mkObj [("file", S e.file), ("line", optI e.line), ("error", errJ e.error)])).toArray), ("config", Json.arr (p.config.map cfgJ).toArray)]
def resJ : Res Payload → Json | .ok p => payJ p | .err e => Json.mkObj [("err", errJ e)] | .panic => "panic" | .fuel => "fuel"
def dirOf (s : String) : String := let ps := s.splitOn "/"; "/".intercalate ps.dropLast
def clean (s : String) : String := Id.run do
  let mut out : List String := []
  for p in s.splitOn "/" do
    if p == "." || p == "" then continue
    if p == ".." && out != [] then out := out.dropLast else out := out ++ [p]
  return (if s.startsWith "/" then "/" else "") ++ "/".intercalate out
def matchG (pat s : List Char) : Bool := match pat, s with
  | [], [] => true
  | '*' :: p, s => matchG p s || (match s with | c :: cs => c != '/' && matchG ('*' :: p) cs | [] => false)
  | '?' :: p, _ :: s => matchG p s
  | a :: p, b :: s => a == b && matchG p s
  | _, _ => false
termination_by (pat.length + s.length)
def mkEnv (files : List (String × String)) : Env where
  openFile := fun _ p => match files.lookup (String.ofList p) with
    | some c => .ok { runes := c.toList }
    | none => .error (.other (c!"open " ++ p ++ c!": no such file or directory"))
  glob := fun _ p => .ok ((files.map (fun f => f.1.toList)).filter (matchG p))
  isAbs := fun p => hasPrefix p c!"/"
  join := fun a b => (clean (String.ofList a ++ "/" ++ String.ofList b)).toList
  dir := fun a => (dirOf (String.ofList a)).toList
  mapOrder := id
def strs (j : Json) (k : String) : List Str := match j.getObjVal? k with | .ok (.arr a) => a.toList.map (fun x => (x.getStr?.toOption.getD "").toList) | _ => []
def getB (j : Json) (k : String) : Bool := match j.getObjVal? k with | .ok (.bool b) => b | _ => false
def str (j : Json) (k : String) : String := match j.getObjVal? k with | .ok (.str b) => b | _ => ""
def mtab : List (String × DirTable) := allTables
def opts (j : Json) : ParseOptions where
  ignoreDirectives := strs j "IgnoreDirectives"
  stopParsingOnError := getB j "StopParsingOnError"
  combineConfigs := getB j "CombineConfigs"
  singleFile := getB j "SingleFile"
  parseComments := getB j "ParseComments"
  errorOnUnknownDirectives := getB j "ErrorOnUnknownDirectives"
  skipDirectiveContextCheck := getB j "SkipDirectiveContextCheck"
  skipDirectiveArgsCheck := getB j "SkipDirectiveArgsCheck"
  directiveSources := (strs j "DirectiveSources").map (fun n => fun d => ((mtab.lookup (String.ofList n)).getD []).get d)
  lexers := if getB j "Lua" then luaRegisterLexer else []
def ip (c : Char) : Bool := !(c.toNat < 32 || (127 ≤ c.toNat && c.toNat ≤ 160) || isSpaceRune c && c != ' ')
partial def dirF (j : Json) : Directive where
  directive := (str j "directive").toList
  line := match j.getObjVal? "line" with | .ok v => v.getInt?.toOption.getD 0 | _ => 0
  args := strs j "args"
  block := match j.getObjVal? "block" with | .ok (.arr a) => some (a.toList.map dirF) | _ => none
  comment := match j.getObjVal? "comment" with | .ok (.str a) => some a.toList | _ => none
def tokJ (t : Tok) : Json := Json.arr #[S t.value, toJson t.line, toJson t.quoted, match t.error with | none => Json.null | some e => errJ e]
def main : IO Unit := do
  let inp ← IO.FS.readFile "/tmp/work/conf/in.json"
  let .ok j := Json.parse inp | throw (IO.userError "bad json")
  let files : List (String × String) := match j.getObjVal? "files" with
    | .ok (.arr a) => a.toList.map (fun x => (str x "path", str x "data")) | _ => []
  let mut out : Array Json := #[]
  match j.getObjVal? "jobs" with
  | .ok (.arr jobs) =>
    for job in jobs do
      if str job "kind" == "lex" then
        let ext := extLexersOf (if getB job "Lua" then luaRegisterLexer else [])
        out := out.push (Json.arr ((lexWith ext (str job "data").toList).map tokJ).toArray)
      if str job "kind" == "parse" then
        out := out.push (resJ (Parse (mkEnv files) 1000 (str job "path").toList (opts job)))
      if str job "kind" == "build" then
        let ds := match job.getObjVal? "parsed" with | .ok (.arr a) => a.toList.map dirF | _ => []
        let ind := match job.getObjVal? "indent" with | .ok v => v.getInt?.toOption.getD 0 | _ => 0
        let bs : List RegisterBuilder := if getB job "Lua" then [{ b := luaBuild, directives := luaDirectiveNames }] else []
        out := out.push (match buildText ip { file := [], parsed := ds } { indent := ind, tabs := getB job "tabs", header := getB job "header", builders := bs } with | some s => S s | none => "PANIC")
  | _ => pure ()
  IO.FS.writeFile "/tmp/work/conf/out.json" (Json.arr out).compress
