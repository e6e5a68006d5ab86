import Verif.Model.Analyze
import Verif.Model.Combine
/-!
# parse.go: the parser

The parser's mutable state (`parser`, the `Config` being filled and the `Payload`, parse.go:46-54, 119-190) is the
record `PS`, passed explicitly.  The token channel is the list of tokens not yet received; that this is
adequate for every schedule and capacity is theorem C01.
-/
namespace Verif

/-- An opened file: the runes the scanner delivers before end of file or before the reader fails, and whether it
fails (`scanner.Err()`, which lex.go never consults). -/
structure FileData where
  runes : List Char
  readErr : Bool := false
deriving Repr, DecidableEq, Inhabited

/-- The environment of `Parse`: file system and path functions.
* `openFile` is `ParseOptions.Open` or `os.Open` (parse.go:24, 203-209); the first argument counts earlier calls, so
  that the file system may change while parsing.
* `glob` is `ParseOptions.Glob` or `filepath.Glob` (parse.go:80, 125-127, 380), likewise.
* `isAbs`, `join`, `dir` are `filepath.IsAbs`, `filepath.Join`, `filepath.Dir` of the platform, left abstract.
* `mapOrder` is the order in which Go iterates over the map `includeInDegree` (parse.go:459). -/
structure Env where
  openFile : Nat → Str → Except GoErr FileData
  glob : Nat → Str → Except GoErr (List Str)
  isAbs : Str → Bool
  join : Str → Str → Str
  dir : Str → Str
  mapOrder : List Str → List Str

/-- parse.go:28 `blockCtx`, a Go slice: its visible elements, the identity of its backing array and its capacity.
Array and capacity matter because `append` in `enterBlockCtx` (analyze.go:139) may write into an array shared with
a context stored in `parser.includes` (parse.go:412). -/
structure Ctx where
  vals : List Str
  arr : Nat
  cap : Nat
deriving Repr, DecidableEq, Inhabited

/-- parse.go:41-44 `fileCtx`. -/
structure FileCtx where
  path : Str
  ctx : Ctx
deriving Repr, DecidableEq, Inhabited

/-- parse.go:46-54 `parser`, the `Config` being filled (status and errors) and the payload's status and errors. -/
structure PS where
  includes : List FileCtx
  included : List (Str × Int)
  includeEdges : List (Str × List Str) := []
  includeInDegree : List (Str × Int)
  cfgStatus : Str := c!"ok"
  cfgErrors : List ConfigError := []
  payStatus : Str := c!"ok"
  payErrors : List PayloadError := []
  /-- number of calls of `openFile`, `Glob`, `ErrorCallback` so far -/
  opens : Nat := 0
  globs : Nat := 0
  calls : Nat := 0
  /-- next unused identity of a backing array -/
  nextArr : Nat := 1
deriving Repr, DecidableEq, Inhabited

/-- Go map assignment `m[k] = v`; new keys are added at the end (the iteration order is taken from `Env.mapOrder`). -/
def mapSet {α : Type} (m : List (Str × α)) (k : Str) (v : α) : List (Str × α) :=
  match m with
  | [] => [(k, v)]
  | e :: m => if e.1 == k then (k, v) :: m else e :: mapSet m k v

/-- parse.go:131-133: the line of an error. -/
def GoErr.line? : GoErr → Option Int
  | .parse e => e.line
  | .other _ => none

/-- parse.go:129-146 `handleError`. -/
def handleError (o : ParseOptions) (file : Str) (ps : PS) (err : GoErr) : PS :=
  { ps with
    cfgStatus := c!"failed"
    cfgErrors := ps.cfgErrors ++ [{ line := err.line?, error := err }]
    payStatus := c!"failed"
    payErrors := ps.payErrors ++
      [{ file := file, line := err.line?, error := err, callback := o.errorCallback.map (fun cb => cb ps.calls err) }]
    calls := if o.errorCallback.isSome then ps.calls + 1 else ps.calls }

/-- How Go grows a full slice of strings with more than 16 elements depends on the version of Go (runtime `growslice` and its size classes: 32 is followed by
64 or by 71, and from 256 on slices grow by less than doubling).  All that is known here is that it grows. -/
opaque growLarge : { f : Nat → Nat // ∀ n, n < f n } := ⟨Nat.succ, Nat.lt_succ_self⟩

/-- Go's growth of a slice of strings by one element when it is full: capacities 1, 2, 4, 8, 16, 32 in all versions of Go (runtime `growslice`). -/
def growCap (cap : Nat) : Nat := if cap == 0 then 1 else if cap ≤ 16 then 2 * cap else growLarge.1 cap

/-- The effect of writing element `i` of backing array `arr` on a slice that shares it. -/
def Ctx.writeShared (c : Ctx) (arr i : Nat) (x : Str) : Ctx :=
  if c.arr == arr then { c with vals := c.vals.set i x } else c

/-- analyze.go:133-140 `enterBlockCtx`.  When the slice has spare capacity `append` writes into the shared array;
the contexts stored in `includes` are the only slices that can be longer than `ctx` and share its array: the
contexts of the enclosing blocks are prefixes of `ctx`. -/
def enterBlockCtx (stmt : Directive) (ctx : Ctx) (ps : PS) : Ctx × PS :=
  if ctx.vals.length > 0 && ctx.vals.head? == some c!"http" && stmt.directive == c!"location" then
    ({ vals := [c!"http", c!"location"], arr := ps.nextArr, cap := 2 }, { ps with nextArr := ps.nextArr + 1 })
  else if ctx.vals.length < ctx.cap then
    ({ ctx with vals := ctx.vals ++ [stmt.directive] },
     { ps with includes := ps.includes.map (fun f =>
        { f with ctx := f.ctx.writeShared ctx.arr ctx.vals.length stmt.directive }) })
  else
    ({ vals := ctx.vals ++ [stmt.directive], arr := ps.nextArr, cap := growCap ctx.cap },
     { ps with nextArr := ps.nextArr + 1 })

/-- parse.go:218-232: the error returned for an error token. -/
def tokenError (file : Str) (ctx : List Str) (t : Tok) : GoErr → GoErr
  | .parse e => .parse { e with file := some file, blockCtx := getLastBlock ctx }
  | .other m => .parse { what := m, file := some file, line := some t.line, orig := some m, blockCtx := getLastBlock ctx }

/-- parse.go:25 `ErrPrematureLexEnd`. -/
def errPrematureLexEnd : Str := c!"premature end of file"

/-- parse.go:277-283, 293-299. -/
def prematureError (file : Str) (ctx : List Str) (line : Int) : GoErr :=
  .parse { what := errPrematureLexEnd, file := some file, line := some line, orig := some errPrematureLexEnd,
           blockCtx := getLastBlock ctx }

/-- An unquoted token with the given value. -/
def Tok.is (t : Tok) (v : Str) : Bool := t.value == v && !t.quoted

/-- The condition of parse.go:285 negated: the token ends the argument list. -/
def Tok.isTerm (t : Tok) : Bool :=
  !(t.quoted || (t.value != c!"{" && t.value != c!";" && t.value != c!"}"))

/-- The condition of parse.go:264 and (negated) 286. -/
def Tok.isCommentTok (t : Tok) : Bool := hasPrefix t.value c!"#" && !t.quoted

/-- parse.go:274-301: reads arguments up to a terminating token.  Result: arguments, texts of the comments met, the
terminator, the remaining tokens; `none` if the channel was closed before. -/
def readArgs (parseComments : Bool) : (args comments : List Str) → List Tok →
    Option (List Str × List Str × Tok × List Tok)
  | _, _, [] => none
  | args, comments, t :: toks =>
    if t.isTerm then some (args, comments, t, toks)
    else if !t.isCommentTok then readArgs parseComments (args ++ [t.value]) comments toks
    else if parseComments then readArgs parseComments args (comments ++ [t.value.drop 1]) toks
    else readArgs parseComments args comments toks

/-- parse.go:214-248 with `consume == true`: a call skips tokens up to its closing brace or error token (whose
error the callers discard, parse.go:245, 313, 327, 340); nested calls for `{` are counted by `depth`. -/
def consume : (depth : Nat) → List Tok → List Tok
  | _, [] => []
  | depth, t :: toks =>
    if t.error.isSome || t.is c!"}" then
      match depth with
      | 0 => toks
      | d + 1 => consume d toks
    else if t.is c!"{" then consume (depth + 1) toks
    else consume depth toks

/-- parse.go:23 `hasMagic`. -/
def hasMagic (s : Str) : Bool := s.any (fun c => c == '*' || c == '?' || c == '[')

/-- `<` of Go strings.  (Order of the UTF-8 bytes, which is the order of the code points.) -/
def strLt : Str → Str → Bool
  | _, [] => false
  | [], _ :: _ => true
  | a :: as, b :: bs => a.toNat < b.toNat || (a.toNat == b.toNat && strLt as bs)

/-- Insertion into a sorted list, for `sortStrings`. -/
def insertSorted (x : Str) : List Str → List Str
  | [] => [x]
  | y :: ys => if strLt y x then y :: insertSorted x ys else x :: y :: ys

/-- parse.go:384 `sort.Strings`: the result of sorting does not depend on the algorithm (equal strings are
indistinguishable). -/
def sortStrings : List Str → List Str
  | [] => []
  | x :: xs => insertSorted x (sortStrings xs)

/-- parse.go:407-419: one resolved file name of an include directive. -/
def addInclude (file : Str) (ctx : Ctx) (stmt : Directive) (ps : PS) (fname : Str) : Directive × PS :=
  let ps : PS := match ps.included.lookup fname with
    | some _ => ps
    | none => { ps with
        included := ps.included ++ [(fname, (ps.included.length : Int))]
        includes := ps.includes ++ [({ path := fname, ctx := ctx } : FileCtx)] }
  let idx := (ps.included.lookup fname).getD 0
  ({ stmt with includes := some (stmt.includes.getD [] ++ [idx]) },
   { ps with
      includeEdges := mapSet ps.includeEdges file ((ps.includeEdges.lookup file).getD [] ++ [fname])
      includeInDegree := mapSet ps.includeInDegree fname ((ps.includeInDegree.lookup fname).getD 0 + 1) })

/-- parse.go:407-419: the loop over the resolved names. -/
def addIncludes (file : Str) (ctx : Ctx) : Directive → PS → List Str → Directive × PS
  | stmt, ps, [] => (stmt, ps)
  | stmt, ps, f :: fs =>
    let r := addInclude file ctx stmt ps f
    addIncludes file ctx r.1 r.2 fs

/-- parse.go:356-420. -/
def doInclude (env : Env) (o : ParseOptions) (configDir file : Str) (ctx : Ctx) (stmt : Directive) (ps : PS) :
    Res Directive × PS :=
  if !o.singleFile && stmt.directive == c!"include" then
    match stmt.args with
    | [] =>
      (.err (.parse { what := c!"invalid number of arguments in \"" ++ stmt.directive ++ c!"\" directive in " ++
                        file ++ c!":" ++ decimal stmt.line,
                      file := some file, line := some stmt.line, statement := stmt.string,
                      blockCtx := getLastBlock ctx.vals }), ps)
    | pattern :: _ =>
      let pattern := if !env.isAbs pattern then env.join configDir pattern else pattern
      if hasMagic pattern then
        let r := env.glob ps.globs pattern
        let ps := { ps with globs := ps.globs + 1 }
        match r with
        | .error e => (.err e, ps)
        | .ok fnames =>
          let r := addIncludes file ctx stmt ps (sortStrings fnames)
          (.ok r.1, r.2)
      else
        let r := env.openFile ps.opens pattern
        let ps := { ps with opens := ps.opens + 1 }
        match r with
        | .error e =>
          let perr : ParseError := stmtError e.error file stmt (getLastBlock ctx.vals)
          if !o.stopParsingOnError then (.ok stmt, handleError o file ps (.parse perr))
          else (.err (.parse perr), ps)
        | .ok _ =>
          let r := addIncludes file ctx stmt ps [pattern]
          (.ok r.1, r.2)
  else (.ok stmt, ps)

/-- parse.go:436-445: the comments found among the arguments. -/
def commentDirectives (line : Int) (fileName : Str) (comments : List Str) : List Directive :=
  comments.map fun c => { directive := c!"#", line := line, args := [], file := fileName, comment := some c }

/-- parse.go:312-314, 326-328: skip the block if the statement opened one. -/
def skipBlock (term : Tok) (toks : List Tok) : List Tok :=
  if term.is c!"{" then consume 0 toks else toks

/-- The suffix tested at parse.go:338. -/
def notTerminated : Str := c!" is not terminated by \";\""

/-- parse.go:304-305: the name of the map-like block that is being parsed. -/
def mapCtx (ctx : List Str) : Option Str :=
  match ctx.getLast? with
  | some m => if (mapBodies.lookup m).isSome then some m else none
  | none => none

/-- parse.go:352-354. -/
def prepIf (stmt : Directive) : Option Directive :=
  if stmt.directive == c!"if" then prepareIfArgs stmt else some stmt

/-- parse.go:214-449 `parse` with `consume == false`.  `parsed` accumulates the directives of the block.  Every
round of the loop and every nested call receives at least one token, so `toks.length + 1` is enough fuel
(theorem in `Proofs/Parse`). -/
def parse (env : Env) (o : ParseOptions) (configDir file : Str) :
    (fuel : Nat) → Ctx → List Tok → (parsed : List Directive) → PS → Res (List Directive) × List Tok × PS
  | 0, _, toks, _, ps => (.fuel, toks, ps)
  | _ + 1, _, [], parsed, ps => (.ok parsed, [], ps)
  | fuel + 1, ctx, t :: toks, parsed, ps =>
    match t.error with
    | some e => (.err (tokenError file ctx.vals t e), toks, ps)
    | none =>
    -- parse.go:237-239
    if t.is c!"}" then (.ok parsed, toks, ps)
    else
    -- parse.go:250-261
    let fileName := if o.combineConfigs then file else []
    let stmt : Directive := { directive := t.value, line := t.line, args := [], file := fileName }
    -- parse.go:264-272
    if t.isCommentTok then
      if o.parseComments then
        parse env o configDir file fuel ctx toks
          (parsed ++ [{ stmt with directive := c!"#", comment := some (t.value.drop 1) }]) ps
      else parse env o configDir file fuel ctx toks parsed ps
    else
    match readArgs o.parseComments [] [] toks with
    | none => (.err (prematureError file ctx.vals stmt.line), [], ps)
    | some (args, comments, term, toks) =>
      let stmt := { stmt with args := args }
      -- parse.go:303-321
      match mapCtx ctx.vals with
      | some m =>
        match analyzeMapBody file stmt term.value m with
        | some mapErr =>
          if o.stopParsingOnError then (.err (.parse mapErr), toks, ps)
          else parse env o configDir file fuel ctx (skipBlock term toks) parsed (handleError o file ps (.parse mapErr))
        | none =>
          parse env o configDir file fuel ctx toks (parsed ++ [{ stmt with isMapBlockParameter := true }]) ps
      | none =>
      -- parse.go:324-330
      if contains o.ignoreDirectives stmt.directive then
        parse env o configDir file fuel ctx (skipBlock term toks) parsed ps
      else
      -- parse.go:333-349
      match analyze file stmt term.value ctx.vals o with
      | some perr =>
        if !o.stopParsingOnError then
          let ps := handleError o file ps (.parse perr)
          if hasSuffix perr.what notTerminated then
            if term.value != c!"}" && !term.quoted then
              parse env o configDir file fuel ctx (consume 0 toks) parsed ps
            else (.ok parsed, toks, ps)
          else parse env o configDir file fuel ctx toks parsed ps
        else (.err (.parse perr), toks, ps)
      | none =>
      -- parse.go:352-354
      match prepIf stmt with
      | none => (.panic, toks, ps)
      | some stmt =>
      -- parse.go:357-420
      match doInclude env o configDir file ctx stmt ps with
      | (.ok stmt, ps) =>
        -- parse.go:423-431
        if term.is c!"{" then
          let inner := enterBlockCtx stmt ctx ps
          match parse env o configDir file fuel inner.1 toks [] inner.2 with
          | (.ok blocks, toks, ps) =>
            parse env o configDir file fuel ctx toks
              (parsed ++ [{ stmt with block := some blocks }] ++ commentDirectives stmt.line fileName comments) ps
          | (.err e, toks, ps) => (.err e, toks, ps)
          | (.panic, toks, ps) => (.panic, toks, ps)
          | (.fuel, toks, ps) => (.fuel, toks, ps)
        else
          parse env o configDir file fuel ctx toks
            (parsed ++ [stmt] ++ commentDirectives stmt.line fileName comments) ps
      | (.err e, ps) => (.err e, toks, ps)
      | (.panic, ps) => (.panic, toks, ps)
      | (.fuel, ps) => (.fuel, toks, ps)

/-- parse.go:472-478: the edges out of one file. -/
def kahnEdges : List (Str × Int) → List Str → List Str → List (Str × Int) × List Str
  | indeg, queue, [] => (indeg, queue)
  | indeg, queue, f :: fs =>
    let v := (indeg.lookup f).getD 0 - 1
    kahnEdges (mapSet indeg f v) (if v == 0 then queue ++ [f] else queue) fs

/-- parse.go:465-479: the number of dequeued files. (Fuel: see `isAcyclic`.) -/
def kahnLoop (edges : List (Str × List Str)) : (fuel : Nat) → List (Str × Int) → List Str → Nat → Nat
  | 0, _, _, count => count
  | _ + 1, _, [], count => count
  | fuel + 1, indeg, file :: queue, count =>
    let r := kahnEdges indeg queue ((edges.lookup file).getD [])
    kahnLoop edges fuel r.1 r.2 (count + 1)

/-- parse.go:456-481 `isAcyclic` (which returns true when there IS a cycle).  Every file is queued at most once, so
one round per key is enough fuel. -/
def isAcyclic (env : Env) (ps : PS) : Bool :=
  let keys := env.mapOrder (ps.includeInDegree.map (·.1))
  let queue := keys.filter (fun k => (ps.includeInDegree.lookup k).getD 0 == 0)
  kahnLoop ps.includeEdges (ps.includeInDegree.length + 1) ps.includeInDegree queue 0 != ps.includeInDegree.length

/-- parse.go:161-190: the worklist loop.  `configs` is `payload.Config`.  The fuel bounds the number of files. -/
def parseFiles (env : Env) (o : ParseOptions) (configDir : Str) :
    (fuel : Nat) → PS → List Config → Res (List Config) × PS
  | 0, ps, _ => (.fuel, ps)
  | fuel + 1, ps, configs =>
    match ps.includes with
    | [] => (.ok configs, ps)
    | incl :: rest =>
      let r := env.openFile ps.opens incl.path
      let ps := { ps with includes := rest, opens := ps.opens + 1 }
      match r with
      | .error e => (.err e, ps)
      | .ok data =>
        let toks := lexWith (extLexersOf o.lexers) data.runes
        let ps := { ps with cfgStatus := c!"ok", cfgErrors := [] }
        match parse env o configDir incl.path (toks.length + 1) incl.ctx toks [] ps with
        | (.ok parsed, _, ps) =>
          parseFiles env o configDir fuel ps
            (configs ++ [{ file := incl.path, status := ps.cfgStatus, errors := ps.cfgErrors, parsed := parsed }])
        | (.err e, _, ps) =>
          if o.stopParsingOnError then (.err e, ps)
          else
            let ps := handleError o incl.path ps e
            parseFiles env o configDir fuel ps
              (configs ++ [{ file := incl.path, status := ps.cfgStatus, errors := ps.cfgErrors, parsed := [] }])
        | (.panic, _, ps) => (.panic, ps)
        | (.fuel, _, ps) => (.fuel, ps)

/-- parse.go:149-159: the initial parser state. -/
def initPS (filename : Str) : PS :=
  { includes := [{ path := filename, ctx := { vals := [], arr := 0, cap := 0 } }]
    included := [(filename, 0)]
    includeInDegree := [(filename, 0)] }

/-- parse.go:193. -/
def cycleError : GoErr := .other c!"configs contain include cycle"

/-- parse.go:119-201 `Parse`.  `fuel` bounds the number of files opened for parsing; C14 shows how much is enough. -/
def Parse (env : Env) (fuel : Nat) (filename : Str) (o : ParseOptions) : Res Payload :=
  match parseFiles env o (env.dir filename) fuel (initPS filename) [] with
  | (.ok configs, ps) =>
    if isAcyclic env ps then .err cycleError
    else
      let payload : Payload := { status := ps.payStatus, errors := ps.payErrors, config := configs }
      if o.combineConfigs then combined (configs.length + 1) payload else .ok payload
  | (.err e, _) => .err e
  | (.panic, _) => .panic
  | (.fuel, _) => .fuel

end Verif
