import Verif.Model.Lex
import Verif.Model.Tables.Default
/-!
# analyze.go, analyze_map.go, and the argument helpers of util.go
-/
namespace Verif

/-- parse.go:64 `MatchFunc`: the bitmasks of a directive, `none` for `matched == false`.
A bitmask (Go `uint`) is a natural number; only `&` and `>>` are applied to it. -/
abbrev MatchFunc := Str → Option (List Nat)

/-- lex.go:60-63 and parse.go:67-114: `ParseOptions` without `Open` and `Glob` (see `Env`).
`errorCallback` receives the number of earlier calls so that a stateful callback can be expressed. -/
structure ParseOptions where
  ignoreDirectives : List Str := []
  errorCallback : Option (Nat → GoErr → Str) := none
  stopParsingOnError : Bool := false
  combineConfigs : Bool := false
  singleFile : Bool := false
  parseComments : Bool := false
  errorOnUnknownDirectives : Bool := false
  skipDirectiveContextCheck : Bool := false
  skipDirectiveArgsCheck : Bool := false
  directiveSources : List MatchFunc := []
  lexers : List RegisterLexer := []

/-- parse.go:30-32 `blockCtx.key`. -/
def ctxKey (ctx : List Str) : Str := joinStr c!">" ctx

/-- parse.go:34-39 `blockCtx.getLastBlock`. -/
def getLastBlock (ctx : List Str) : Str :=
  match ctx.getLast? with
  | none => c!"main"
  | some b => b

/-- analyze.go:114-131 `contexts`. -/
def contexts : List (Str × Nat) := [
  (ctxKey [], ngxMainConf),
  (ctxKey [c!"events"], ngxEventConf),
  (ctxKey [c!"mail"], ngxMailMainConf),
  (ctxKey [c!"mail", c!"server"], ngxMailSrvConf),
  (ctxKey [c!"stream"], ngxStreamMainConf),
  (ctxKey [c!"stream", c!"server"], ngxStreamSrvConf),
  (ctxKey [c!"stream", c!"upstream"], ngxStreamUpsConf),
  (ctxKey [c!"http"], ngxHTTPMainConf),
  (ctxKey [c!"http", c!"server"], ngxHTTPSrvConf),
  (ctxKey [c!"http", c!"location"], ngxHTTPLocConf),
  (ctxKey [c!"http", c!"upstream"], ngxHTTPUpsConf),
  (ctxKey [c!"http", c!"server", c!"if"], ngxHTTPSifConf),
  (ctxKey [c!"http", c!"location", c!"if"], ngxHTTPLifConf),
  (ctxKey [c!"http", c!"location", c!"limit_except"], ngxHTTPLmtConf),
  (ctxKey [c!"mgmt"], ngxMgmtMainConf),
  (ctxKey [c!"http", c!"oidc_provider"], ngxHTTPOIDCConf)]

/-- util.go:57-68 `validExpr`.  `len` in bytes versus runes: an argument with prefix "(" and suffix ")" has more than
2 bytes iff it has more than 2 runes; likewise with one known end and 1. -/
def validExpr (args : List Str) : Bool :=
  let l := args.length
  match args.head?, args.getLast? with
  | some b, some e =>
    l > 0 && hasPrefix b c!"(" && hasSuffix e c!")" &&
      ((l == 1 && b.length > 2) || (l == 2 && (b.length > 1 || e.length > 1)) || l > 2)
  | _, _ => false

/-- util.go:71-86 `prepareIfArgs`.  `none` is the run-time panic of the slice expression on line 83, which happens
when the lower bound exceeds the upper one. -/
def prepareIfArgs (d : Directive) : Option Directive :=
  match d.args.head?, d.args.getLast? with
  | some a0, some ae =>
    if hasPrefix a0 c!"(" && hasSuffix ae c!")" then
      -- util.go:75
      let args := d.args.set 0 (trimLeftSpace (trimPrefixChar a0 '('))
      -- util.go:76 (reads the element just written if there is only one)
      let e := args.length - 1
      let args := args.set e (trimRightSpace (trimSuffixChar (args.getD e []) ')'))
      -- util.go:77-82
      let b : Nat := if (args.getD 0 []).length == 0 then 1 else 0
      let upper : Nat := if (args.getD e []).length == 0 then e else e + 1
      -- util.go:83
      if b > upper then none else some { d with args := (args.take upper).drop b }
    else some d
  | _, _ => some d

/-- the argument test shared by analyze.go:231-235 and analyze_map.go:99-105 `hasValidArguments`. -/
def hasValidArguments (mask : Nat) (args : List Str) : Bool :=
  (((mask >>> args.length) &&& 1) != 0 && args.length ≤ 7) ||
  ((mask &&& ngxConfFlag) != 0 && args.length == 1 && validFlag (args.headD [])) ||
  ((mask &&& ngxConfAny) != 0) ||
  ((mask &&& ngxConf1More) != 0 && args.length ≥ 1) ||
  ((mask &&& ngxConf2More) != 0 && args.length ≥ 2)

/-- The error literals of analyze.go:166-172, 192-198, 244-250. -/
def stmtError (what fname : Str) (stmt : Directive) (blockCtx : Str) : ParseError :=
  { what := what, file := some fname, line := some stmt.line, statement := stmt.string,
    blockCtx := blockCtx }

/-- analyze.go:208-242: the loop over the masks, with the message `what` of the last failing mask. `none`: accepted. -/
def checkMasks (stmt : Directive) (term : Str) : (what : Str) → List Nat → Option Str
  | what, [] => some what
  | _, mask :: masks =>
    if (mask &&& ngxConfExpr) > 0 && !validExpr stmt.args then
      checkMasks stmt term (c!"directive \"" ++ stmt.directive ++ c!"\"'s is not enclosed in parentheses") masks
    else if (mask &&& ngxConfBlock) != 0 && term != c!"{" then
      checkMasks stmt term (c!"directive \"" ++ stmt.directive ++ c!"\" has no opening \"{\"") masks
    else if (mask &&& ngxConfBlock) == 0 && term != c!";" then
      checkMasks stmt term (c!"directive \"" ++ stmt.directive ++ c!"\" is not terminated by \";\"") masks
    else if hasValidArguments mask stmt.args then none
    else if (mask &&& ngxConfFlag) != 0 && stmt.args.length == 1 && !validFlag (stmt.args.headD []) then
      checkMasks stmt term (c!"invalid value \"" ++ stmt.args.headD [] ++ c!"\" in \"" ++ stmt.directive ++
        c!"\" directive, it must be \"on\" or \"off\"") masks
    else
      checkMasks stmt term (c!"invalid number of arguments in \"" ++ stmt.directive ++ c!"\" directive") masks

/-- analyze.go:150-162: the bitmasks of a directive. `none`: unknown directive. -/
def lookupMasks (o : ParseOptions) (name : Str) : Option (List Nat) :=
  if o.directiveSources.length == 0 then defaultDirectivesMatch name
  else
    o.directiveSources.foldl (fun acc f =>
      match f name with
      | some ms => some (acc.getD [] ++ ms)
      | none => acc) none

/-- analyze.go:143-251 `analyze`.  `none`: nil error. -/
def analyze (fname : Str) (stmt : Directive) (term : Str) (ctx : List Str) (o : ParseOptions) :
    Option ParseError :=
  let currCtx := contexts.lookup (ctxKey ctx)
  let known := lookupMasks o stmt.directive
  -- analyze.go:164-173
  if o.errorOnUnknownDirectives && known.isNone then
    some (stmtError (c!"unknown directive \"" ++ stmt.directive ++ c!"\"") fname stmt (getLastBlock ctx))
  else
    match currCtx, known with
    | some cur, some masks =>
      -- analyze.go:181-200
      let ctxMasks := if o.skipDirectiveContextCheck then masks
        else masks.filter (fun mask => (mask &&& cur) != 0)
      if !o.skipDirectiveContextCheck && ctxMasks.length == 0 then
        some (stmtError (c!"\"" ++ stmt.directive ++ c!"\" directive is not allowed here") fname stmt
          (getLastBlock ctx))
      -- analyze.go:202-204
      else if o.skipDirectiveArgsCheck then none
      else
        -- analyze.go:206-250
        match checkMasks stmt term [] ctxMasks with
        | none => none
        | some what => some (stmtError what fname stmt (getLastBlock ctx))
    -- analyze.go:175-179
    | _, _ => none

/-- analyze_map.go:14-17 `mapParameterMasks`. -/
structure MapParameterMasks where
  special : List (Str × Nat) := []
  default : Nat
deriving Repr, DecidableEq

/-- analyze_map.go:20-48 `mapBodies`. -/
def mapBodies : List (Str × MapParameterMasks) := [
  (c!"charset_map", { default := ngxConfTake1 }),
  (c!"geo", { special := [(c!"ranges", ngxConfNoArgs), (c!"proxy_recursive", ngxConfNoArgs)],
              default := ngxConfTake1 }),
  (c!"map", { special := [(c!"volatile", ngxConfNoArgs), (c!"hostnames", ngxConfNoArgs)],
              default := ngxConfTake1 }),
  (c!"match", { default := ngxConf1More }),
  (c!"types", { default := ngxConf1More }),
  (c!"split_clients", { default := ngxConfTake1 }),
  (c!"geoip2", { special := [(c!"auto_reload", ngxConfTake1)], default := ngxConf1More }),
  (c!"otel_exporter", { default := ngxConfTake1 })]

/-- analyze_map.go:52-97 `analyzeMapBody`. `none`: nil error. -/
def analyzeMapBody (fname : Str) (parameter : Directive) (term mapCtx : Str) : Option ParseError :=
  match mapBodies.lookup mapCtx with
  | none => none
  | some masks =>
    if term != c!";" then
      some (stmtError (c!"unexpected \"" ++ term ++ c!"\"") fname parameter mapCtx)
    else
      match masks.special.lookup parameter.directive with
      | some mask =>
        if hasValidArguments mask parameter.args then none
        else some (stmtError c!"invalid number of parameters" fname parameter mapCtx)
      | none =>
        if hasValidArguments masks.default parameter.args then none
        else some (stmtError c!"invalid number of parameters" fname parameter mapCtx)

end Verif
