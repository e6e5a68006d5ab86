import Verif.Model.Parse
import Verif.Model.Build
import Verif.Spec.Handles
/-!
# parse.go: file handles

The parser of `Model/Parse` once more, with the handles it opens and closes.  `Parse` defers the `Close` of every file it parses to its own return (parse.go:170);
`parse` opens the file of an include directive without wildcards to see whether it exists and defers its `Close` to the return of the call of `parse` it is in
(parse.go:400-402), that is, to the end of the block.  Deferred calls run in reverse order, also if the function panics.  That the results are those of
`Model/Parse` is a theorem (`Proofs/Handles`).  What is missing here as there: reading from the handles (by the lexer's goroutine, which may go on after the return of
`Parse`).  If the fuel of the model runs out nothing is closed.
-/
namespace Verif
open Spec

/-- parse.go:357-405: the handles that `doInclude` opens: the events, and what is to be closed. -/
def includeOpens (env : Env) (o : ParseOptions) (configDir : Str) (stmt : Directive) (ps : PS) : List HEvent × List Nat :=
  if !o.singleFile && stmt.directive == c!"include" then
    match stmt.args with
    | [] => ([], [])
    | pattern :: _ =>
      let pattern := if !env.isAbs pattern then env.join configDir pattern else pattern
      if hasMagic pattern then ([], [])
      else match env.openFile ps.opens pattern with
        | .error _ => ([.failed ps.opens], [])
        | .ok _ => ([.open_ ps.opens], [ps.opens])
  else ([], [])

/-- The return of a function whose deferred calls close the handles `frame`. -/
def ret {α : Type} (frame : List Nat) (r : α) : α × List HEvent := (r, frame.map .close)

/-- `t`, then what the rest does. -/
def after {α : Type} (t : List HEvent) (r : α × List HEvent) : α × List HEvent := (r.1, t ++ r.2)

/-- parse.go:214-449 `parse` with its handles; `frame` are the handles whose `Close` is deferred in this call. -/
def parseH (env : Env) (o : ParseOptions) (configDir file : Str) :
    (fuel : Nat) → Ctx → List Tok → (parsed : List Directive) → PS → (frame : List Nat) → (Res (List Directive) × List Tok × PS) × List HEvent
  | 0, _, toks, _, ps, _ => ((.fuel, toks, ps), [])
  | _ + 1, _, [], parsed, ps, frame => ret frame (.ok parsed, [], ps)
  | fuel + 1, ctx, t :: toks, parsed, ps, frame =>
    match t.error with
    | some e => ret frame (.err (tokenError file ctx.vals t e), toks, ps)
    | none =>
    if t.is c!"}" then ret frame (.ok parsed, toks, ps)
    else
    let fileName := if o.combineConfigs then file else []
    let stmt : Directive := { directive := t.value, line := t.line, args := [], file := fileName }
    if t.isCommentTok then
      if o.parseComments then
        parseH env o configDir file fuel ctx toks
          (parsed ++ [{ stmt with directive := c!"#", comment := some (t.value.drop 1) }]) ps frame
      else parseH env o configDir file fuel ctx toks parsed ps frame
    else
    match readArgs o.parseComments [] [] toks with
    | none => ret frame (.err (prematureError file ctx.vals stmt.line), [], ps)
    | some (args, comments, term, toks) =>
      let stmt := { stmt with args := args }
      match mapCtx ctx.vals with
      | some m =>
        match analyzeMapBody file stmt term.value m with
        | some mapErr =>
          if o.stopParsingOnError then ret frame (.err (.parse mapErr), toks, ps)
          else parseH env o configDir file fuel ctx (skipBlock term toks) parsed (handleError o file ps (.parse mapErr)) frame
        | none =>
          parseH env o configDir file fuel ctx toks (parsed ++ [{ stmt with isMapBlockParameter := true }]) ps frame
      | none =>
      if contains o.ignoreDirectives stmt.directive then
        parseH env o configDir file fuel ctx (skipBlock term toks) parsed ps frame
      else
      match analyze file stmt term.value ctx.vals o with
      | some perr =>
        if !o.stopParsingOnError then
          let ps := handleError o file ps (.parse perr)
          if hasSuffix perr.what notTerminated then
            if term.value != c!"}" && !term.quoted then
              parseH env o configDir file fuel ctx (consume 0 toks) parsed ps frame
            else ret frame (.ok parsed, toks, ps)
          else parseH env o configDir file fuel ctx toks parsed ps frame
        else ret frame (.err (.parse perr), toks, ps)
      | none =>
      match prepIf stmt with
      | none => ret frame (.panic, toks, ps)
      | some stmt =>
      let opened := includeOpens env o configDir stmt ps
      let frame := opened.2 ++ frame
      after opened.1 <|
      match doInclude env o configDir file ctx stmt ps with
      | (.ok stmt, ps) =>
        if term.is c!"{" then
          let inner := enterBlockCtx stmt ctx ps
          match parseH env o configDir file fuel inner.1 toks [] inner.2 [] with
          | ((.ok blocks, toks, ps), tr) =>
            after tr (parseH env o configDir file fuel ctx toks
              (parsed ++ [{ stmt with block := some blocks }] ++ commentDirectives stmt.line fileName comments) ps frame)
          | ((.err e, toks, ps), tr) => after tr (ret frame (.err e, toks, ps))
          | ((.panic, toks, ps), tr) => after tr (ret frame (.panic, toks, ps))
          | ((.fuel, toks, ps), tr) => after tr ((.fuel, toks, ps), [])
        else
          parseH env o configDir file fuel ctx toks
            (parsed ++ [stmt] ++ commentDirectives stmt.line fileName comments) ps frame
      | (.err e, ps) => ret frame (.err e, toks, ps)
      | (.panic, ps) => ret frame (.panic, toks, ps)
      | (.fuel, ps) => ((.fuel, toks, ps), [])

/-- parse.go:161-190: the loop of `Parse` with its handles; `frame` are the handles whose `Close` is deferred to the return of `Parse`.  Result: as `parseFiles`, the
events so far and the deferred calls. -/
def parseFilesH (env : Env) (o : ParseOptions) (configDir : Str) :
    (fuel : Nat) → PS → List Config → (frame : List Nat) → ((Res (List Config) × PS) × List Nat) × List HEvent
  | 0, ps, _, frame => (((.fuel, ps), frame), [])
  | fuel + 1, ps, configs, frame =>
    match ps.includes with
    | [] => (((.ok configs, ps), frame), [])
    | incl :: rest =>
      let k := ps.opens
      let r := env.openFile ps.opens incl.path
      let ps := { ps with includes := rest, opens := ps.opens + 1 }
      match r with
      | .error e => (((.err e, ps), frame), [.failed k])
      | .ok data =>
        let frame := k :: frame
        let toks := lexWith (extLexersOf o.lexers) data.runes
        let ps := { ps with cfgStatus := c!"ok", cfgErrors := [] }
        match parseH env o configDir incl.path (toks.length + 1) incl.ctx toks [] ps [] with
        | ((.ok parsed, _, ps), tr) =>
          after (.open_ k :: tr) (parseFilesH env o configDir fuel ps
            (configs ++ [{ file := incl.path, status := ps.cfgStatus, errors := ps.cfgErrors, parsed := parsed }]) frame)
        | ((.err e, _, ps), tr) =>
          if o.stopParsingOnError then (((.err e, ps), frame), .open_ k :: tr)
          else
            let ps := handleError o incl.path ps e
            after (.open_ k :: tr) (parseFilesH env o configDir fuel ps
              (configs ++ [{ file := incl.path, status := ps.cfgStatus, errors := ps.cfgErrors, parsed := [] }]) frame)
        | ((.panic, _, ps), tr) => (((.panic, ps), frame), .open_ k :: tr)
        | ((.fuel, _, ps), tr) => (((.fuel, ps), frame), .open_ k :: tr)

/-- parse.go:119-201 `Parse` with its handles: the events up to its return. -/
def ParseH (env : Env) (fuel : Nat) (filename : Str) (o : ParseOptions) : Res Payload × List HEvent :=
  match parseFilesH env o (env.dir filename) fuel (initPS filename) [] [] with
  | (((.ok configs, ps), frame), tr) => after tr <|
    if isAcyclic env ps then ret frame (.err cycleError)
    else
      let payload : Payload := { status := ps.payStatus, errors := ps.payErrors, config := configs }
      ret frame (if o.combineConfigs then combined (configs.length + 1) payload else .ok payload)
  | (((.err e, _), frame), tr) => after tr (ret frame (.err e))
  | (((.panic, _), frame), tr) => after tr (ret frame .panic)
  | (((.fuel, _), _), tr) => (.fuel, tr)

/-- build.go:79-125: the calls of `BuildFiles` that open and close handles, noted beside the state: the events and the number of calls of create.  `BuildFiles`
has one handle at a time: what is closed is what was created last. -/
def notedOS {σ : Type} (os : OS σ) : OS (σ × List HEvent × Nat) where
  getwd := fun s => let r := os.getwd s.1; ((r.1, s.2), r.2)
  mkdirAll := fun s d => let r := os.mkdirAll s.1 d; ((r.1, s.2), r.2)
  create := fun s p =>
    let r := os.create s.1 p
    ((r.1, s.2.1 ++ [if r.2.isSome then .failed s.2.2 else .open_ s.2.2], s.2.2 + 1), r.2)
  write := fun s p b => let r := os.write s.1 p b; ((r.1, s.2), r.2)
  close := fun s p => let r := os.close s.1 p; ((r.1, s.2.1 ++ [.close (s.2.2 - 1)], s.2.2), r.2)
  isAbs := os.isAbs
  join := os.join
  dir := os.dir

/-- build.go:331-347: the same for the creator of `BuildInto`. -/
def notedCreator {σ : Type} (c : Creator σ) : Creator (σ × List HEvent × Nat) where
  create := fun s p =>
    let r := c.create s.1 p
    ((r.1, s.2.1 ++ [if r.2.isSome then .failed s.2.2 else .open_ s.2.2], s.2.2 + 1), r.2)
  write := fun s b => let r := c.write s.1 b; ((r.1, s.2), r.2)
  close := fun s => let r := c.close s.1; ((r.1, s.2.1 ++ [.close (s.2.2 - 1)], s.2.2), r.2)

end Verif
