import Verif.Model.Types
/-!
# build.go, buffer.go and `repr` of util.go: rendering directives

Output text is a list of code points; its UTF-8 encoding happens at the writer.  `isPrint` is
`strconv.IsPrint` (a Unicode table), left abstract.
-/
namespace Verif

/-- lower-case hexadecimal digit. -/
def hexDigit (n : Nat) : Char := if n < 10 then Char.ofNat (48 + n) else Char.ofNat (87 + n)

/-- the last `k` hexadecimal digits of `n`. -/
def hexDigits : (k : Nat) → (n : Nat) → Str
  | 0, _ => []
  | k + 1, n => hexDigits k (n / 16) ++ [hexDigit (n % 16)]

/-- `strconv.appendEscapedRune` with quote `"`, as used by `fmt.Sprintf("%q", s)` (util.go:39). -/
def escapeRune (isPrint : Char → Bool) (r : Char) : Str :=
  if r == '"' || r == '\\' then ['\\', r]
  else if isPrint r then [r]
  else if r == '\x07' then c!"\\a"
  else if r == '\x08' then c!"\\b"
  else if r == '\x0c' then c!"\\f"
  else if r == '\n' then c!"\\n"
  else if r == '\r' then c!"\\r"
  else if r == '\t' then c!"\\t"
  else if r == '\x0b' then c!"\\v"
  else if r.toNat < 32 || r.toNat == 127 then c!"\\x" ++ hexDigits 2 r.toNat
  else if r.toNat < 65536 then c!"\\u" ++ hexDigits 4 r.toNat
  else c!"\\U" ++ hexDigits 8 r.toNat

/-- `fmt.Sprintf("%q", s)`. -/
def goQuote (isPrint : Char → Bool) (s : Str) : Str := '"' :: s.flatMap (escapeRune isPrint) ++ ['"']

/-- util.go:38-49 `repr`. -/
def repr (isPrint : Char → Bool) (s : Str) : Str :=
  let q := goQuote isPrint s
  if s.any (· == '"') then
    let q := replaceAll2 '\\' '"' ['"'] q
    let q := replaceAll1 '\'' ['\\', '\''] q
    '\'' :: (q.drop 1).dropLast ++ ['\'']
  else q

/-- build.go:304-320, the loop of `escape`; the result is what is written to `sb`. -/
def escapeLoop : (pc : Char) → Str → Str
  | _, [] => []
  | pc, cc :: rest =>
    if pc == '\\' || (pc == '$' && cc == '{') then pc :: cc :: escapeLoop '\x00' rest
    else
      (if pc == '$' then [pc] else []) ++
      (if cc != '\\' && cc != '$' then [cc] else []) ++
      escapeLoop cc rest

/-- build.go:296-327 `escape`. -/
def escape (s : Str) : Str :=
  if !s.any (fun c => c == '{' || c == '}' || c == '$' || c == ';' || c == '\\') then s
  else
    let cc := s.getLast?.getD '\x00'
    escapeLoop '\x00' s ++ (if cc == '\\' || cc == '$' then [cc] else [])

/-- build.go:271-293, the loop of `needsQuote` over the runes after the first. -/
def needsQuoteLoop : (expanding : Bool) → (char prev : Char) → Str → Bool
  | expanding, char, _, [] => expanding || char == '\\' || char == '$'
  | expanding, _, prev, c :: rest =>
    if prev == '\\' then needsQuoteLoop expanding c '\x00' rest
    else if isSpaceRune c || c == '{' || c == ';' || c == '"' || c == '\'' then true
    else if (expanding && (prev == '$' && c == '{')) || (!expanding && c == '}') then true
    else
      let expanding := if (expanding && c == '}') || (!expanding && (prev == '$' && c == '{')) then !expanding
        else expanding
      needsQuoteLoop expanding c c rest

/-- build.go:245-294 `needsQuote`. -/
def needsQuote (s : Str) : Bool :=
  if s == [] then true
  else
    match escape s with
    | [] => true
    | char :: chars =>
      if isSpaceRune char || (char == '{' || char == '}' || char == ';' || char == '"' || char == '\'') ||
          hasPrefix (char :: chars) c!"${" then true
      else needsQuoteLoop false char '\x00' chars

/-- build.go:237-242 `Enquote`. -/
def Enquote (isPrint : Char → Bool) (arg : Str) : Str :=
  if !needsQuote arg then arg
  else replaceAll2 '\\' '\\' ['\\'] (repr isPrint arg)

/-- build.go:59-61 `Builder`: rendering of a directive. -/
abbrev Builder := Directive → Str

/-- build.go:33-36 `registerBuilder`. -/
structure RegisterBuilder where
  b : Builder
  directives : List Str

/-- build.go:20-26 `BuildOptions`. -/
structure BuildOptions where
  indent : Int := 0
  tabs : Bool := false
  header : Bool := false
  builders : List RegisterBuilder := []
  extBuilders : Option (Str → Option Builder) := none

/-- The lookup in `options.extBuilders` (build.go:176-177); in a nil map nothing is found. -/
def BuildOptions.ext (o : BuildOptions) (name : Str) : Option Builder := o.extBuilders.bind fun m => m name

/-- build.go:38-46 `applyBuildOptions`. -/
def RegisterBuilder.apply (rb : RegisterBuilder) (o : BuildOptions) : BuildOptions :=
  let m := o.extBuilders.getD (fun _ => none)
  { o with extBuilders := some (rb.directives.foldl (fun m s => fun k => if k == s then some rb.b else m k) m) }

/-- build.go:88-90, 141-143: all registrations are applied in order. -/
def applyBuilders (o : BuildOptions) : BuildOptions := o.builders.foldl (fun o rb => rb.apply o) o

/-- build.go:63 `MaxIndent`. -/
def maxIndent : Nat := 100

/-- build.go:222-235 `margin`.  `none` is the run-time panic of an out-of-range slice bound. -/
def margin (o : BuildOptions) (depth : Nat) : Option Str :=
  let indent : Int := depth * o.indent
  if indent < maxIndent then
    if o.tabs then
      if depth ≤ maxIndent then some (List.replicate depth '\t') else none
    else
      if 0 ≤ indent then some (List.replicate indent.toNat ' ') else none
  else if o.tabs then some (List.replicate depth '\t')
  else some (List.replicate (o.indent * depth).toNat ' ')

/-- build.go:189-204: the arguments of a statement. -/
def buildArgs (isPrint : Char → Bool) (directive : Str) (args : List Str) : Str :=
  if directive == c!"if" then
    c!" (" ++ joinStr c!" " (args.map (Enquote isPrint)) ++ c!")"
  else args.flatMap (fun a => ' ' :: Enquote isPrint a)

/-- build.go:163: the statement is a comment on the line of the previous statement. -/
def sameLineComment (stmt : Directive) (lastLine : Int) : Bool := stmt.line == lastLine && stmt.isComment

mutual
/-- build.go:174-216: one statement, without the leading line feed; the flag tells whether `lastLine` is updated
(build.go:218), which the `continue` of line 179 skips.  `none` is a panic in `margin`. -/
def buildStmt (isPrint : Char → Bool) (o : BuildOptions) (depth : Nat) : Directive → Option (Str × Bool)
  | ⟨dd, dl, dargs, df, dincl, dblock, dcomm, dmap⟩ => do
    let directive := Enquote isPrint dd
    let m ← margin o depth
    match o.ext directive with
    | some ext => some (m ++ ext ⟨dd, dl, dargs, df, dincl, dblock, dcomm, dmap⟩, false)
    | none =>
      match (if dd == c!"#" then dcomm else none) with
      | some comment => some (m ++ c!"#" ++ comment, true)
      | none => do
        let tail ← buildOpt isPrint o depth dl dblock
        some (m ++ directive ++ buildArgs isPrint directive dargs ++ tail, true)
/-- build.go:206-215: the terminator or block of a statement. -/
def buildOpt (isPrint : Char → Bool) (o : BuildOptions) (depth : Nat) (line : Int) :
    Option (List Directive) → Option Str
  | none => some c!";"
  | some ds => do
    let body ← buildBlock isPrint o true (depth + 1) line true ds
    let m ← margin o depth
    some (c!" {" ++ body ++ c!"\n" ++ m ++ c!"}")
/-- build.go:159-220 `buildBlock`.  `hasParent` is `parent != nil`, `first` is `i == 0`. -/
def buildBlock (isPrint : Char → Bool) (o : BuildOptions) (hasParent : Bool) (depth : Nat) (lastLine : Int)
    (first : Bool) : List Directive → Option Str
  | [] => some []
  | stmt :: rest =>
    if sameLineComment stmt lastLine then do
      let tail ← buildBlock isPrint o hasParent depth lastLine false rest
      some (c!" #" ++ stmt.comment.getD [] ++ tail)
    else do
      let nl : Str := if !first || hasParent then c!"\n" else []
      let (s, upd) ← buildStmt isPrint o depth stmt
      let tail ← buildBlock isPrint o hasParent depth (if upd then stmt.line else lastLine) false rest
      some (nl ++ s ++ tail)
end

/-- build.go:71-75 `header`. -/
def header : Str :=
  c!"# This config was built from JSON using NGINX crossplane.\n" ++
  c!"# If you encounter any bugs please report them here:\n" ++
  c!"# https://github.com/nginxinc/crossplane/issues\n\n"

/-- build.go:129-131 and 140-144: the options as updated (in place) by `Build`. -/
def buildSetup (o : BuildOptions) : BuildOptions :=
  let o := if o.indent == 0 then { o with indent := 4 } else o
  if o.extBuilders.isNone then applyBuilders o else o

/-- build.go:146-152: the body written by `Build`. -/
def buildBody (isPrint : Char → Bool) (o : BuildOptions) (parsed : List Directive) : Option Str := do
  let body ← buildBlock isPrint o false 0 0 true parsed
  some (if body.getLast? == some '\n' then body.dropLast else body)

/-- An `io.Writer` with state `σ`: a write may fail. -/
structure Writer (σ : Type) where
  write : σ → Str → σ × Option GoErr

/-- build.go:128-156 `Build`: error (if any), state of the writer, updated options; `none` is a panic. -/
def Build {σ : Type} (isPrint : Char → Bool) (w : Writer σ) (s : σ) (config : Config) (o : BuildOptions) :
    Option (Option GoErr × σ × BuildOptions) :=
  -- build.go:129-138: on a failing header write the builders are not applied yet
  let o1 := if o.indent == 0 then { o with indent := 4 } else o
  let r := if o.header then w.write s header else (s, none)
  match r with
  | (s, some e) => some (some e, s, o1)
  | (s, none) => do
    let o := buildSetup o
    let body ← buildBody isPrint o config.parsed
    let r := w.write s body
    some (r.2, r.1, o)

/-- The text `Build` writes to a writer that does not fail: header (if requested) and body. -/
def buildText (isPrint : Char → Bool) (config : Config) (o : BuildOptions) : Option Str := do
  let body ← buildBody isPrint (buildSetup o) config.parsed
  some ((if o.header then header else []) ++ body)

/-- buffer.go:16-19 `Creator`, with state `σ`: `Create` may fail or give a handle to write to and close. -/
structure Creator (σ : Type) where
  create : σ → Str → σ × Option GoErr
  write : σ → Str → σ × Option GoErr
  close : σ → σ × Option GoErr

/-- build.go:331-347 `BuildInto`. -/
def BuildInto {σ : Type} (isPrint : Char → Bool) (c : Creator σ) : σ → BuildOptions → List Config →
    Option (Option GoErr × σ × BuildOptions)
  | s, o, [] => some (none, s, o)
  | s, o, config :: configs =>
    match c.create s config.file with
    | (s, some e) => some (some e, s, o)
    | (s, none) =>
      match Build isPrint ⟨c.write⟩ s config o with
      | none => none
      | some (some e, s, o) => some (some e, s, o)
      | some (none, s, o) =>
        match c.close s with
        | (s, some e) => some (some e, s, o)
        | (s, none) => BuildInto isPrint c s o configs

/-- buffer.go:22-40 `FileString`. -/
structure FileString where
  name : Str
  w : Str
deriving Repr, DecidableEq

/-- buffer.go:43-58 `StringsCreator` as a `Creator`; writes and `Close` go to the file created last (`BuildInto`
holds one handle at a time). -/
def stringsCreator : Creator (List FileString) where
  create := fun files name => (files ++ [{ name := name, w := [] }], none)
  write := fun files b => (match files.getLast? with
    | some f => files.dropLast ++ [{ f with w := f.w ++ b }]
    | none => files, none)
  close := fun files => (match files.getLast? with
    | some f => files.dropLast ++ [{ f with w := f.w ++ ['\n'] }]
    | none => files, none)

/-- The operating-system calls of `BuildFiles` (build.go:80-121), with state `σ`. -/
structure OS (σ : Type) where
  getwd : σ → σ × Except GoErr Str
  mkdirAll : σ → Str → σ × Option GoErr
  /-- `os.Create`: creates or truncates -/
  create : σ → Str → σ × Option GoErr
  write : σ → Str → Str → σ × Option GoErr
  close : σ → Str → σ × Option GoErr
  isAbs : Str → Bool
  join : Str → Str → Str
  dir : Str → Str

/-- build.go:104-108: `Build` into a `bytes.Buffer`, whose writes never fail. -/
def bufferWriter : Writer Str := ⟨fun s b => (s ++ b, none)⟩

/-- build.go:92-122, the loop of `BuildFiles`. -/
def buildFilesLoop {σ : Type} (isPrint : Char → Bool) (os : OS σ) (dir : Str) :
    σ → BuildOptions → List Config → Option (Option GoErr × σ)
  | s, _, [] => some (none, s)
  | s, o, config :: configs =>
    let path := if !os.isAbs config.file then os.join dir config.file else config.file
    match os.mkdirAll s (os.dir path) with
    | (s, some e) => some (some e, s)
    | (s, none) =>
      match Build isPrint bufferWriter [] config o with
      | none => none
      | some (some e, _, _) => some (some e, s)
      | some (none, buf, o) =>
        match os.create s path with
        | (s, some e) => some (some e, s)
        | (s, none) =>
          match os.write s path (trimRightSpace buf ++ ['\n']) with
          | (s, some e) => some (some e, s)
          | (s, none) =>
            match os.close s path with
            | (s, some e) => some (some e, s)
            | (s, none) => buildFilesLoop isPrint os dir s o configs

/-- build.go:79-125 `BuildFiles`. -/
def BuildFiles {σ : Type} (isPrint : Char → Bool) (os : OS σ) (s : σ) (payload : Payload) (dir : Str)
    (o : BuildOptions) : Option (Option GoErr × σ) :=
  if dir == [] then
    match os.getwd s with
    | (s, .error e) => some (some e, s)
    | (s, .ok cwd) => buildFilesLoop isPrint os cwd s (applyBuilders o) payload.config
  else buildFilesLoop isPrint os dir s (applyBuilders o) payload.config

end Verif
