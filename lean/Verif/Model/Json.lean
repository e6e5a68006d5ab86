import Verif.Model.Types
/-!
# JSON encoding of the payload types (types.go:15-50, errors.go:37-39 with `encoding/json`)

JSON documents are modelled as trees.  The text level (string escapes, number syntax) is the Go standard library's
and is trusted.  Strings containing invalid UTF-8 are outside the string model.
-/
namespace Verif

/-- A JSON value. -/
inductive JVal where
  | null
  | bool (b : Bool)
  | num (n : Int)
  | str (s : Str)
  | arr (xs : List JVal)
  | obj (fields : List (Str × JVal))
deriving Repr, Inhabited

mutual
/-- `json.Marshal` of a `Directive` following its struct tags (types.go:41-49).  `Args` of a parsed or decoded
directive is never nil. -/
def encDirective : Directive → JVal
  | ⟨dd, dl, dargs, df, dincl, dblock, dcomm, dmap⟩ =>
    .obj ([(c!"directive", .str dd), (c!"line", .num dl), (c!"args", .arr (dargs.map .str))] ++
      (if df == [] then [] else [(c!"file", .str df)]) ++
      (match dincl with
        | none => []
        | some [] => []
        | some (i :: is) => [(c!"includes", .arr ((i :: is).map .num))]) ++
      encBlock dblock ++
      (match dcomm with | none => [] | some c => [(c!"comment", .str c)]) ++
      (if dmap then [(c!"mapBlockParameter", .bool true)] else []))
/-- the `block,omitempty` field (types.go:46): omitted when nil or empty. -/
def encBlock : Option (List Directive) → List (Str × JVal)
  | none => []
  | some ds => match encDirectives ds with
    | [] => []
    | x :: xs => [(c!"block", .arr (x :: xs))]
/-- an array of directives. -/
def encDirectives : List Directive → List JVal
  | [] => []
  | d :: ds => encDirective d :: encDirectives ds
end

/-- decoding a JSON value into a Go `string`: `null` leaves it unchanged, other kinds are an error. -/
def decStr (old : Str) : JVal → Option Str
  | .null => some old
  | .str s => some s
  | _ => none

/-- into an `int`. -/
def decInt (old : Int) : JVal → Option Int
  | .null => some old
  | .num n => some n
  | _ => none

/-- into a `bool`. -/
def decBool (old : Bool) : JVal → Option Bool
  | .null => some old
  | .bool b => some b
  | _ => none

/-- into a `[]string` (fresh elements start as ""). -/
def decStrs : JVal → Option (List Str)
  | .null => some []
  | .arr xs => xs.mapM (decStr [])
  | _ => none

/-- into a `[]int`; `null` gives nil. -/
def decInts : JVal → Option (Option (List Int))
  | .null => some none
  | .arr xs => (xs.mapM (decInt 0)).map some
  | _ => none

/-- into a `*string`; `null` gives nil. -/
def decStrPtr : JVal → Option (Option Str)
  | .null => some none
  | .str s => some (some s)
  | _ => none

mutual
/-- `json.Unmarshal` into a `Directive`: the fields of the object are processed in order.  Simplifications: keys
are matched exactly (Go also accepts other letter cases), and unknown keys are ignored as in Go. `none` is a
decoding error. -/
def decDirective : JVal → Option Directive
  | .obj fields => decFields { directive := [], line := 0, args := [] } fields
  | .null => some { directive := [], line := 0, args := [] }
  | _ => none
/-- the fields of a directive object. -/
def decFields (d : Directive) : List (Str × JVal) → Option Directive
  | [] => some d
  | (k, v) :: rest => do
    let d ←
      if k == c!"directive" then (decStr d.directive v).map fun x => { d with directive := x }
      else if k == c!"line" then (decInt d.line v).map fun x => { d with line := x }
      else if k == c!"args" then (decStrs v).map fun x => { d with args := x }
      else if k == c!"file" then (decStr d.file v).map fun x => { d with file := x }
      else if k == c!"includes" then (decInts v).map fun x => { d with includes := x }
      else if k == c!"block" then (decBlock v).map fun x => { d with block := x }
      else if k == c!"comment" then (decStrPtr v).map fun x => { d with comment := x }
      else if k == c!"mapBlockParameter" then
        (decBool d.isMapBlockParameter v).map fun x => { d with isMapBlockParameter := x }
      else some d
    decFields d rest
/-- `Directives`; `null` gives nil.  (Simplification: a `null` element, a nil pointer in Go, is decoded as a zero
directive; the encoder never produces one from a parsed payload.) -/
def decBlock : JVal → Option (Option (List Directive))
  | .null => some none
  | .arr xs => (decDirectives xs).map some
  | _ => none
/-- the elements of a `Directives` array. -/
def decDirectives : List JVal → Option (List Directive)
  | [] => some []
  | x :: xs => do
    let d ← decDirective x
    let ds ← decDirectives xs
    some (d :: ds)
end

/-- `*int` field. -/
def encLine : Option Int → JVal
  | none => .null
  | some l => .num l

/-- an `error` field: `ParseError.MarshalJSON` (errors.go:37-39) gives its text; other error values of this code
(`*errors.errorString`, `*fs.PathError`) have no exported JSON fields of interest and are encoded as objects. -/
def encErr : GoErr → JVal
  | .parse e => .str e.error
  | .other _ => .obj []

/-- types.go:35-38. -/
def encConfigError (e : ConfigError) : JVal := .obj [(c!"line", encLine e.line), (c!"error", encErr e.error)]

/-- types.go:28-33. -/
def encConfig (c : Config) : JVal :=
  .obj [(c!"file", .str c.file), (c!"status", .str c.status), (c!"errors", .arr (c.errors.map encConfigError)),
        (c!"parsed", .arr (encDirectives c.parsed))]

/-- types.go:21-26. -/
def encPayloadError (e : PayloadError) : JVal :=
  .obj ([(c!"file", .str e.file), (c!"line", encLine e.line), (c!"error", encErr e.error)] ++
    (match e.callback with | none => [] | some c => [(c!"callback", .str c)]))

/-- types.go:15-19. -/
def encPayload (p : Payload) : JVal :=
  .obj [(c!"status", .str p.status), (c!"errors", .arr (p.errors.map encPayloadError)),
        (c!"config", .arr (p.config.map encConfig))]

/-- decoding the `errors` array of a config or payload: `Error` has interface type `error`, into which
`encoding/json` cannot decode any non-null value, so every encoded error makes decoding fail. -/
def decErrors : JVal → Option Unit
  | .null => some ()
  | .arr [] => some ()
  | _ => none

/-- `json.Unmarshal` into a `Config`. -/
def decConfigFields (c : Config) : List (Str × JVal) → Option Config
  | [] => some c
  | (k, v) :: rest => do
    let c ←
      if k == c!"file" then (decStr c.file v).map fun x => { c with file := x }
      else if k == c!"status" then (decStr c.status v).map fun x => { c with status := x }
      else if k == c!"errors" then (decErrors v).map fun _ => { c with errors := [] }
      else if k == c!"parsed" then (decBlock v).map fun x => { c with parsed := x.getD [] }
      else some c
    decConfigFields c rest

/-- `json.Unmarshal` into a `Config`. -/
def decConfig : JVal → Option Config
  | .obj fields => decConfigFields { file := [] } fields
  | .null => some { file := [] }
  | _ => none

/-- `json.Unmarshal` into a `Payload`. -/
def decPayloadFields (p : Payload) : List (Str × JVal) → Option Payload
  | [] => some p
  | (k, v) :: rest => do
    let p ←
      if k == c!"status" then (decStr p.status v).map fun x => { p with status := x }
      else if k == c!"errors" then (decErrors v).map fun _ => { p with errors := [] }
      else if k == c!"config" then
        (match v with
          | .null => some []
          | .arr xs => xs.mapM decConfig
          | _ => none).map fun x => { p with config := x }
      else some p
    decPayloadFields p rest

/-- `json.Unmarshal` into a `Payload`. -/
def decPayload : JVal → Option Payload
  | .obj fields => decPayloadFields {} fields
  | .null => some {}
  | _ => none

end Verif
