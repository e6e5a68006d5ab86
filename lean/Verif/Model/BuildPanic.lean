import Verif.Model.Build
/-!
# build.go: what is left after a panic

`Build`, `BuildInto` and `BuildFiles` of `Model/Build` once more, with the state in which a panic leaves the world.  The first component is the result, `none` a panic.  That the results
are those of `Model/Build` is a theorem (`C92_build`, `C92_into`, `C92_files`).  None of these functions defers a call, so a panic does nothing on its way out.
-/
namespace Verif

/-- build.go:128-156 `Build`, with the state of the writer at a panic: the header was written before. -/
def BuildP {σ : Type} (isPrint : Char → Bool) (w : Writer σ) (s : σ) (config : Config) (o : BuildOptions) : Option (Option GoErr × BuildOptions) × σ :=
  let o1 := if o.indent == 0 then { o with indent := 4 } else o
  let r := if o.header then w.write s header else (s, none)
  match r with
  | (s, some e) => (some (some e, o1), s)
  | (s, none) =>
    let o := buildSetup o
    match buildBody isPrint o config.parsed with
    | none => (none, s)
    | some body => let r := w.write s body; (some (r.2, o), r.1)

/-- build.go:331-347 `BuildInto`, with the state at a panic: the file was created before. -/
def BuildIntoP {σ : Type} (isPrint : Char → Bool) (c : Creator σ) : σ → BuildOptions → List Config → Option (Option GoErr × BuildOptions) × σ
  | s, o, [] => (some (none, o), s)
  | s, o, config :: configs =>
    match c.create s config.file with
    | (s, some e) => (some (some e, o), s)
    | (s, none) =>
      match BuildP isPrint ⟨c.write⟩ s config o with
      | (none, s) => (none, s)
      | (some (some e, o), s) => (some (some e, o), s)
      | (some (none, o), s) =>
        match c.close s with
        | (s, some e) => (some (some e, o), s)
        | (s, none) => BuildIntoP isPrint c s o configs

/-- build.go:92-122, the loop of `BuildFiles`, with the state at a panic: the directory was made, but the file is created only after `Build`. -/
def buildFilesLoopP {σ : Type} (isPrint : Char → Bool) (os : OS σ) (dir : Str) : σ → BuildOptions → List Config → Option (Option GoErr) × σ
  | s, _, [] => (some none, s)
  | s, o, config :: configs =>
    let path := if !os.isAbs config.file then os.join dir config.file else config.file
    match os.mkdirAll s (os.dir path) with
    | (s, some e) => (some (some e), s)
    | (s, none) =>
      match BuildP isPrint bufferWriter [] config o with
      | (none, _) => (none, s)
      | (some (some e, _), _) => (some (some e), s)
      | (some (none, o), buf) =>
        match os.create s path with
        | (s, some e) => (some (some e), s)
        | (s, none) =>
          match os.write s path (trimRightSpace buf ++ ['\n']) with
          | (s, some e) => (some (some e), s)
          | (s, none) =>
            match os.close s path with
            | (s, some e) => (some (some e), s)
            | (s, none) => buildFilesLoopP isPrint os dir s o configs

/-- build.go:79-125 `BuildFiles`, with the state at a panic. -/
def BuildFilesP {σ : Type} (isPrint : Char → Bool) (os : OS σ) (s : σ) (payload : Payload) (dir : Str) (o : BuildOptions) : Option (Option GoErr) × σ :=
  if dir == [] then
    match os.getwd s with
    | (s, .error e) => (some (some e), s)
    | (s, .ok cwd) => buildFilesLoopP isPrint os cwd s (applyBuilders o) payload.config
  else buildFilesLoopP isPrint os dir s (applyBuilders o) payload.config

end Verif
