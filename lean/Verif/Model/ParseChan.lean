import Verif.Model.Parse
/-!
# parse.go and lex.go together: the parser receives from the channels of the lexers

The parser of `Model/Parse` once more, one received token at a time, and the program it is part of: `Parse` starts a goroutine with a lexer for every file it parses
(parse.go:172, lex.go:97-99) and receives from its channel (parse.go:217, 275, 291); the goroutines of earlier files may still be there.  The scheduler picks any
step that is possible.  Between two receives the parser does not touch the channel, so this is one step.

The tokens that a lexer computes are those of `lexWith`; that external lexers in goroutines of their own give these is theorem C66.
-/
namespace Verif

/-! ## The parser, one token at a time -/

/-- A call of `parse` that waits for the call for the block of its statement (parse.go:426). -/
structure Frame where
  ctx : Ctx
  parsed : List Directive
  stmt : Directive
  comments : List Str

/-- Where the parser is when it receives a token, in the innermost call and with the calls around it.
* `loop`: parse.go:217 with `consume == false`.
* `args`: parse.go:275 or 291, after the first token `t` of a statement and the arguments and comments `as`, `cs`.
* `skip`: parse.go:217 with `consume == true`, within `depth` further such calls (parse.go:245).
* `done`: the outermost call has returned. -/
inductive ParserSt where
  | loop (ctx : Ctx) (parsed : List Directive) (ps : PS) (stack : List Frame)
  | args (t : Tok) (as cs : List Str) (ctx : Ctx) (parsed : List Directive) (ps : PS) (stack : List Frame)
  | skip (depth : Nat) (ctx : Ctx) (parsed : List Directive) (ps : PS) (stack : List Frame)
  | done (r : Res (List Directive)) (ps : PS)

/-- parse.go:426-446, 449: a call returns its directives; the call around it goes on. -/
def returnOk (o : ParseOptions) (file : Str) (parsed : List Directive) (ps : PS) : List Frame → ParserSt
  | [] => .done (.ok parsed) ps
  | f :: stack =>
    .loop f.ctx (f.parsed ++ [{ f.stmt with block := some parsed }] ++
      commentDirectives f.stmt.line (if o.combineConfigs then file else []) f.comments) ps stack

/-- parse.go:303-446: the statement with first token `t` was ended by `term`. -/
def endStmt (env : Env) (o : ParseOptions) (configDir file : Str) (t : Tok) (as cs : List Str) (term : Tok)
    (ctx : Ctx) (parsed : List Directive) (ps : PS) (stack : List Frame) : ParserSt :=
  let fileName := if o.combineConfigs then file else []
  let stmt : Directive := { directive := t.value, line := t.line, args := as, file := fileName }
  match mapCtx ctx.vals with
  | some m =>
    match analyzeMapBody file stmt term.value m with
    | some mapErr =>
      if o.stopParsingOnError then .done (.err (.parse mapErr)) ps
      else
        let ps := handleError o file ps (.parse mapErr)
        if term.is c!"{" then .skip 0 ctx parsed ps stack else .loop ctx parsed ps stack
    | none => .loop ctx (parsed ++ [{ stmt with isMapBlockParameter := true }]) ps stack
  | none =>
  if contains o.ignoreDirectives stmt.directive then
    if term.is c!"{" then .skip 0 ctx parsed ps stack else .loop ctx parsed ps stack
  else
  match analyze file stmt term.value ctx.vals o with
  | some perr =>
    if !o.stopParsingOnError then
      let ps := handleError o file ps (.parse perr)
      if hasSuffix perr.what notTerminated then
        if term.value != c!"}" && !term.quoted then .skip 0 ctx parsed ps stack
        else returnOk o file parsed ps stack
      else .loop ctx parsed ps stack
    else .done (.err (.parse perr)) ps
  | none =>
  match prepIf stmt with
  | none => .done .panic ps
  | some stmt =>
  match doInclude env o configDir file ctx stmt ps with
  | (.ok stmt, ps) =>
    if term.is c!"{" then
      let inner := enterBlockCtx stmt ctx ps
      .loop inner.1 [] inner.2 ({ ctx := ctx, parsed := parsed, stmt := stmt, comments := cs } :: stack)
    else .loop ctx (parsed ++ [stmt] ++ commentDirectives stmt.line fileName cs) ps stack
  | (.err e, ps) => .done (.err e) ps
  | (.panic, ps) => .done .panic ps
  | (.fuel, ps) => .done .fuel ps

/-- parse.go:214-449: what the parser does with a token it receives, or when the channel is closed (`none`), up to the next receive. -/
def receive (env : Env) (o : ParseOptions) (configDir file : Str) : ParserSt → Option Tok → ParserSt
  | .loop _ parsed ps stack, none => returnOk o file parsed ps stack
  | .loop ctx parsed ps stack, some t =>
    match t.error with
    | some e => .done (.err (tokenError file ctx.vals t e)) ps
    | none =>
    if t.is c!"}" then returnOk o file parsed ps stack
    else if t.isCommentTok then
      if o.parseComments then
        let stmt : Directive := { directive := c!"#", line := t.line, args := [], file := if o.combineConfigs then file else [], comment := some (t.value.drop 1) }
        .loop ctx (parsed ++ [stmt]) ps stack
      else .loop ctx parsed ps stack
    else .args t [] [] ctx parsed ps stack
  | .args t _ _ ctx _ ps _, none => .done (.err (prematureError file ctx.vals t.line)) ps
  | .args t as cs ctx parsed ps stack, some t' =>
    if t'.isTerm then endStmt env o configDir file t as cs t' ctx parsed ps stack
    else if !t'.isCommentTok then .args t (as ++ [t'.value]) cs ctx parsed ps stack
    else if o.parseComments then .args t as (cs ++ [t'.value.drop 1]) ctx parsed ps stack
    else .args t as cs ctx parsed ps stack
  | .skip 0 ctx parsed ps stack, none => .loop ctx parsed ps stack
  | .skip (d + 1) ctx parsed ps stack, none => .skip d ctx parsed ps stack
  | .skip depth ctx parsed ps stack, some t =>
    if t.error.isSome || t.is c!"}" then
      match depth with
      | 0 => .loop ctx parsed ps stack
      | d + 1 => .skip d ctx parsed ps stack
    else if t.is c!"{" then .skip (depth + 1) ctx parsed ps stack
    else .skip depth ctx parsed ps stack
  | .done r ps, _ => .done r ps

/-! ## The goroutines of the lexers -/

/-- The goroutine of a lexer and its channel: the tokens it has not computed yet, the one it has computed and is about to send, and what is in the buffer of the
channel. -/
structure LexerG where
  rest : List Tok
  pending : Option Tok
  buf : List Tok
  closed : Bool

/-- lex.go:97-99. -/
def LexerG.start (toks : List Tok) : LexerG := { rest := toks, pending := none, buf := [], closed := false }

/-- Steps of a lexer on its own: it computes a token; it sends one, if the buffer has room; it closes the channel (lex.go:274, 288, 337). -/
inductive LexerStep (cap : Nat) : LexerG → LexerG → Prop where
  | compute (t rest buf) : LexerStep cap ⟨t :: rest, none, buf, false⟩ ⟨rest, some t, buf, false⟩
  | send (t rest buf) : buf.length < cap → LexerStep cap ⟨rest, some t, buf, false⟩ ⟨rest, none, buf ++ [t], false⟩
  | close (buf) : LexerStep cap ⟨[], none, buf, false⟩ ⟨[], none, buf, true⟩

/-- What the receiver of a channel gets: a token of the buffer, or of the sender that waits at the empty buffer, or that the channel is closed and empty. -/
inductive Receives : LexerG → Option Tok → LexerG → Prop where
  | buffered (t rest pending buf closed) : Receives ⟨rest, pending, t :: buf, closed⟩ (some t) ⟨rest, pending, buf, closed⟩
  | handoff (t rest) : Receives ⟨rest, some t, [], false⟩ (some t) ⟨rest, none, [], false⟩
  | closed (rest pending) : Receives ⟨rest, pending, [], true⟩ none ⟨rest, pending, [], true⟩

/-! ## The program -/

/-- Where `Parse` is: at the head of its loop (parse.go:161), in `parse` for a file (parse.go:179), or it has returned. -/
inductive Main where
  | next (ps : PS) (configs : List Config)
  | file (path : Str) (configs : List Config) (st : ParserSt)
  | returned (r : Res Payload)

/-- `Parse` and the goroutines of the lexers, the latest first. -/
structure Sys where
  main : Main
  lexers : List LexerG

/-- parse.go:192-200: after the loop. -/
def finish (env : Env) (o : ParseOptions) (ps : PS) (configs : List Config) : Res Payload :=
  if isAcyclic env ps then .err cycleError
  else
    let payload : Payload := { status := ps.payStatus, errors := ps.payErrors, config := configs }
    if o.combineConfigs then combined (configs.length + 1) payload else .ok payload

/-- parse.go:179-189: after `parse` for a file. -/
def afterFile (o : ParseOptions) (path : Str) (configs : List Config) (ps : PS) : Res (List Directive) → Main
  | .ok parsed => .next ps (configs ++ [{ file := path, status := ps.cfgStatus, errors := ps.cfgErrors, parsed := parsed }])
  | .err e =>
    if o.stopParsingOnError then .returned (.err e)
    else
      let ps := handleError o path ps e
      .next ps (configs ++ [{ file := path, status := ps.cfgStatus, errors := ps.cfgErrors, parsed := [] }])
  | .panic => .returned .panic
  | .fuel => .returned .fuel

/-- A step of the program.  Only the latest lexer is read. -/
inductive LiveStep (env : Env) (o : ParseOptions) (configDir : Str) (cap : Nat) : Sys → Sys → Prop where
  | lexer (m pre g g' post) : LexerStep cap g g' → LiveStep env o configDir cap ⟨m, pre ++ g :: post⟩ ⟨m, pre ++ g' :: post⟩
  | openFail (ps configs incl rest e gs) : ps.includes = incl :: rest → env.openFile ps.opens incl.path = .error e →
      LiveStep env o configDir cap ⟨.next ps configs, gs⟩ ⟨.returned (.err e), gs⟩
  | openFile (ps configs incl rest data gs) : ps.includes = incl :: rest → env.openFile ps.opens incl.path = .ok data →
      LiveStep env o configDir cap ⟨.next ps configs, gs⟩
        ⟨.file incl.path configs (.loop incl.ctx [] { ps with includes := rest, opens := ps.opens + 1, cfgStatus := c!"ok", cfgErrors := [] } []),
          .start (lexWith (extLexersOf o.lexers) data.runes) :: gs⟩
  | finish (ps configs gs) : ps.includes = [] → LiveStep env o configDir cap ⟨.next ps configs, gs⟩ ⟨.returned (finish env o ps configs), gs⟩
  | receive (path configs st g t g' gs) : (∀ r ps, st ≠ .done r ps) → Receives g t g' →
      LiveStep env o configDir cap ⟨.file path configs st, g :: gs⟩ ⟨.file path configs (receive env o configDir path st t), g' :: gs⟩
  | fileDone (path configs r ps gs) : LiveStep env o configDir cap ⟨.file path configs (.done r ps), gs⟩ ⟨afterFile o path configs ps r, gs⟩

/-- The same, and: when `Parse` returns it closes the files (parse.go:170), so a lexer that has not yet computed all tokens of its file can then get anything instead of
the rest of the file. -/
inductive SysStep (env : Env) (o : ParseOptions) (configDir : Str) (cap : Nat) : Sys → Sys → Prop where
  | live {s s'} : LiveStep env o configDir cap s s' → SysStep env o configDir cap s s'
  | cut (r pre g post rest) : g.rest ≠ [] →
      SysStep env o configDir cap ⟨.returned r, pre ++ g :: post⟩ ⟨.returned r, pre ++ { g with rest := rest } :: post⟩

/-- `n` steps, chosen by the scheduler. -/
inductive SysRun (env : Env) (o : ParseOptions) (configDir : Str) (cap : Nat) : Nat → Sys → Sys → Prop where
  | refl (s) : SysRun env o configDir cap 0 s s
  | tail {n a b c} : SysRun env o configDir cap n a b → SysStep env o configDir cap b c → SysRun env o configDir cap (n + 1) a c

/-- `n` steps without `cut`. -/
inductive LiveRun (env : Env) (o : ParseOptions) (configDir : Str) (cap : Nat) : Nat → Sys → Sys → Prop where
  | refl (s) : LiveRun env o configDir cap 0 s s
  | tail {n a b c} : LiveRun env o configDir cap n a b → LiveStep env o configDir cap b c → LiveRun env o configDir cap (n + 1) a c

/-- parse.go:149-159: the start of `Parse`. -/
def Sys.init (filename : Str) : Sys := { main := .next (initPS filename) [], lexers := [] }

end Verif
