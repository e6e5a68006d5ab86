import Verif.Model.Parse
/-!
# parse.go:118-127: the options between calls and between goroutines

`Parse` takes a pointer to the options and writes to them: if `Glob` is nil it becomes `filepath.Glob`.  Nothing else is written: the options of the lexer are passed by value (lex.go:92),
and the map of external lexers is made anew by every call.  Here the field `Glob` is explicit; `Env.glob` is `filepath.Glob` in the file system as it is when the call is made.
-/
namespace Verif

/-- A function that may be assigned to `ParseOptions.Glob`. -/
abbrev GlobFn := Nat → Str → Except GoErr (List Str)

/-- parse.go:80 `Glob`: nil, `filepath.Glob`, or a function of the caller. -/
inductive GlobVal
  | unset
  | os
  | user (g : GlobFn)

/-- The options: `Glob` and the other fields. -/
structure SharedOptions where
  glob : GlobVal := .unset
  opts : ParseOptions := {}

/-- The environment of a parser that calls this `Glob`. -/
def GlobVal.env (env : Env) : GlobVal → Env
  | .unset => env
  | .os => env
  | .user g => { env with glob := g }

/-- parse.go:118-190 `Parse` with the options it leaves. -/
def ParseShared (env : Env) (fuel : Nat) (filename : Str) (s : SharedOptions) : Res Payload × SharedOptions :=
  let s := match s.glob with
    | .unset => { s with glob := .os }
    | _ => s
  (Parse (s.glob.env env) fuel filename s.opts, s)

/-- What a program does with one options value: calls, and assignments to the fields. -/
inductive ParseEvent
  | parse (env : Env) (fuel : Nat) (filename : Str)
  | setGlob (g : Option GlobFn)
  | setOpts (o : ParseOptions)

/-- The events one after the other with the same options: the results of the calls. -/
def parseSession : SharedOptions → List ParseEvent → List (Res Payload)
  | _, [] => []
  | s, .parse env fuel filename :: es => (ParseShared env fuel filename s).1 :: parseSession (ParseShared env fuel filename s).2 es
  | s, .setGlob none :: es => parseSession { s with glob := .unset } es
  | s, .setGlob (some g) :: es => parseSession { s with glob := .user g } es
  | s, .setOpts o :: es => parseSession { s with opts := o } es

/-! ## Goroutines -/

/-- A call of `Parse`: the file system it sees, and the file. -/
structure ParseJob where
  env : Env
  fuel : Nat
  filename : Str

/-- Where a goroutine is in `Parse`. -/
inductive ParsePc
  /-- parse.go:125, about to read `Glob` -/
  | start
  /-- parse.go:126, about to write `Glob` -/
  | setGlob
  /-- parse.go:129-190; `Glob` is only called -/
  | run
  | done (r : Res Payload)

/-- One step of a goroutine. -/
def parsePcStep (job : ParseJob) (s : SharedOptions) : ParsePc → Option (SharedOptions × ParsePc)
  | .start => match s.glob with
    | .unset => some (s, .setGlob)
    | _ => some (s, .run)
  | .setGlob => some ({ s with glob := .os }, .run)
  | .run => match s.glob with
    | .unset => some (s, .done .panic)
    | g => some (s, .done (Parse (g.env job.env) job.fuel job.filename s.opts))
  | .done _ => none

/-- The scheduler lets one goroutine make a step. -/
inductive ParseSched (jobs : Nat → ParseJob) : SharedOptions × (Nat → ParsePc) → SharedOptions × (Nat → ParsePc) → Prop
  | step {s s' : SharedOptions} {gs : Nat → ParsePc} {pc : ParsePc} (i : Nat) : parsePcStep (jobs i) s (gs i) = some (s', pc) →
      ParseSched jobs (s, gs) (s', fun j => if j = i then pc else gs j)

/-- The states that are reached under some schedule. -/
inductive ParseReach (jobs : Nat → ParseJob) (s : SharedOptions × (Nat → ParsePc)) : SharedOptions × (Nat → ParsePc) → Prop
  | refl : ParseReach jobs s s
  | tail {t u : SharedOptions × (Nat → ParsePc)} : ParseReach jobs s t → ParseSched jobs t u → ParseReach jobs s u

end Verif
