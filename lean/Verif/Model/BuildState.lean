import Verif.Model.Build
/-!
# build.go: the options between calls

`Build`, `BuildInto` and `BuildFiles` take a pointer to the options and write to them: the default of `Indent`, and the unexported map `extBuilders`.  Here `BuildFiles` returns
the options it leaves, and a program that uses one options value for several calls is a list of events.
-/
namespace Verif

/-- build.go:92-122, the loop of `BuildFiles`, with the options it leaves. -/
def buildFilesLoopO {σ : Type} (isPrint : Char → Bool) (os : OS σ) (dir : Str) : σ → BuildOptions → List Config → Option (Option GoErr × σ × BuildOptions)
  | s, o, [] => some (none, s, o)
  | s, o, config :: configs =>
    let path := if !os.isAbs config.file then os.join dir config.file else config.file
    match os.mkdirAll s (os.dir path) with
    | (s, some e) => some (some e, s, o)
    | (s, none) =>
      match Build isPrint bufferWriter [] config o with
      | none => none
      | some (some e, _, o) => some (some e, s, o)
      | some (none, buf, o) =>
        match os.create s path with
        | (s, some e) => some (some e, s, o)
        | (s, none) =>
          match os.write s path (trimRightSpace buf ++ ['\n']) with
          | (s, some e) => some (some e, s, o)
          | (s, none) =>
            match os.close s path with
            | (s, some e) => some (some e, s, o)
            | (s, none) => buildFilesLoopO isPrint os dir s o configs

/-- build.go:79-125 `BuildFiles`, with the options it leaves. -/
def BuildFilesO {σ : Type} (isPrint : Char → Bool) (os : OS σ) (s : σ) (payload : Payload) (dir : Str) (o : BuildOptions) : Option (Option GoErr × σ × BuildOptions) :=
  if dir == [] then
    match os.getwd s with
    | (s, .error e) => some (some e, s, o)
    | (s, .ok cwd) => buildFilesLoopO isPrint os cwd s (applyBuilders o) payload.config
  else buildFilesLoopO isPrint os dir s (applyBuilders o) payload.config

/-- What a program does with one options value: calls, and assignments to the exported fields.  `σ` is the state of the world. -/
inductive Event (σ : Type)
  | build (w : Writer σ) (config : Config)
  | into (c : Creator σ) (configs : List Config)
  | files (os : OS σ) (payload : Payload) (dir : Str)
  | setIndent (n : Int)
  | setTabs (b : Bool)
  | setHeader (b : Bool)
  | setBuilders (bs : List RegisterBuilder)

/-- A call with the options `o`; `none` is a panic. -/
def Event.call {σ : Type} (isPrint : Char → Bool) (s : σ) (o : BuildOptions) : Event σ → Option (Option GoErr × σ × BuildOptions)
  | .build w config => Build isPrint w s config o
  | .into c configs => BuildInto isPrint c s o configs
  | .files os payload dir => BuildFilesO isPrint os s payload dir o
  | .setIndent n => some (none, s, { o with indent := n })
  | .setTabs b => some (none, s, { o with tabs := b })
  | .setHeader b => some (none, s, { o with header := b })
  | .setBuilders bs => some (none, s, { o with builders := bs })

/-- The events one after the other with the same options: the errors returned, and the state of the world at the end; `none` is a panic. -/
def session {σ : Type} (isPrint : Char → Bool) : σ → BuildOptions → List (Event σ) → Option (List (Option GoErr) × σ)
  | s, _, [] => some ([], s)
  | s, o, e :: es =>
    match e.call isPrint s o with
    | none => none
    | some (err, s, o) => (session isPrint s o es).map fun r => (err :: r.1, r.2)

end Verif
