import Verif.Model.Str
/-!
# types.go, errors.go: payload types and errors
-/
namespace Verif

/-- errors.go:15-24 `ParseError`.  `File *string` and `Line *int` become `Option`.
`originalErr` is modelled by its text; the only wrapped errors are `ErrPrematureLexEnd` and errors of
external lexers (parse.go:225-231, 277-283, 293-299). -/
structure ParseError where
  what : Str
  file : Option Str := none
  line : Option Int := none
  statement : Str := []
  blockCtx : Str := []
  orig : Option Str := none
deriving Repr, DecidableEq, Inhabited

/-- A Go `error` value as it occurs in this code: a `*ParseError`, or any other error (given by its `Error()` text). -/
inductive GoErr where
  | parse (e : ParseError)
  | other (msg : Str)
deriving Repr, DecidableEq, Inhabited

/-- errors.go:26-35 `(*ParseError).Error`. -/
def ParseError.error (e : ParseError) : Str :=
  let file := match e.file with | none => c!"(nofile)" | some f => f
  match e.line with
  | some l => e.what ++ c!" in " ++ file ++ c!":" ++ decimal l
  | none => e.what ++ c!" in " ++ file

/-- `err.Error()`. -/
def GoErr.error : GoErr → Str
  | .parse e => e.error
  | .other m => m

/-- errors.go:41-43 `Unwrap` (`none` is nil). -/
def ParseError.unwrap (e : ParseError) : Option Str := e.orig

/-- types.go:40-50 `Directive`.  `Includes` and `Block` distinguish nil (`none`) from empty; `Args` does not:
no modelled function tells a nil `Args` from an empty one. -/
structure Directive where
  directive : Str
  line : Int
  args : List Str
  file : Str := []
  includes : Option (List Int) := none
  block : Option (List Directive) := none
  comment : Option Str := none
  isMapBlockParameter : Bool := false
deriving Repr, Inhabited

/-- types.go:55-57 `IsBlock`. -/
def Directive.isBlock (d : Directive) : Bool := d.block.isSome

/-- types.go:60-62 `IsInclude`. -/
def Directive.isInclude (d : Directive) : Bool := d.directive == c!"include" && d.includes.isSome

/-- types.go:65-67 `IsComment`. -/
def Directive.isComment (d : Directive) : Bool := d.directive == c!"#" && d.comment.isSome

/-- types.go:134-139 `String`. -/
def Directive.string (d : Directive) : Str :=
  if (d.block.getD []).length == 0 then
    d.directive ++ c!" " ++ joinStr c!" " d.args
  else
    d.directive ++ c!" " ++ joinStr c!" " d.args ++ c!" {...}"

/-- types.go:69-79 `equals`. -/
def equalsStrs (a b : List Str) : Bool :=
  if a.length != b.length then false else (a.zip b).all (fun p => p.1 == p.2)

/-- types.go:82-90 `strPtrEqual`.  Pointer identity (line 83) implies equal contents, so it is covered by
the comparison of contents. -/
def strPtrEqual : Option Str → Option Str → Bool
  | none, none => true
  | some a, some b => a == b
  | _, _ => false

mutual
/-- types.go:93-130 `(*Directive).Equal` for two non-nil pointers.  Pointer identity (line 94) is an early exit
that the structural comparison also answers with true (`Equal` is reflexive, proved in `Props/Types`). -/
def Directive.equal : Directive → Directive → Bool
  | ⟨dd, dl, dargs, df, dincl, dblock, dcomm, dmap⟩, a =>
    a.directive == dd &&
    equalsStrs a.args dargs &&
    (a.block.getD []).length == (dblock.getD []).length &&
    (a.includes.getD []).length == (dincl.getD []).length &&
    strPtrEqual a.comment dcomm &&
    a.line == dl &&
    a.file == df &&
    a.isMapBlockParameter == dmap &&
    ((a.includes.getD []).zip (dincl.getD [])).all (fun p => p.1 == p.2) &&
    Directive.equalOpt dblock (a.block.getD [])
/-- the loop of types.go:124-128 over the (possibly nil) block. -/
def Directive.equalOpt : Option (List Directive) → List Directive → Bool
  | none, _ => true
  | some ds, as => Directive.equalList ds as
/-- the loop of types.go:124-128. -/
def Directive.equalList : List Directive → List Directive → Bool
  | [], _ => true
  | _ :: _, [] => true
  | d :: ds, a :: as => Directive.equal d a && Directive.equalList ds as
end

/-- types.go:93-100: `Equal` on pointers, `none` being nil. -/
def Directive.equalPtr : Option Directive → Option Directive → Bool
  | none, none => true
  | some d, some a => d.equal a
  | _, _ => false

/-- types.go:35-38 `ConfigError`. -/
structure ConfigError where
  line : Option Int
  error : GoErr
deriving Repr, DecidableEq, Inhabited

/-- types.go:28-33 `Config`. -/
structure Config where
  file : Str
  status : Str := []
  errors : List ConfigError := []
  parsed : List Directive := []
deriving Repr, Inhabited

/-- types.go:21-26 `PayloadError`.  The callback result (any Go value) is represented by a string; `none` is nil. -/
structure PayloadError where
  file : Str
  line : Option Int
  error : GoErr
  callback : Option Str := none
deriving Repr, DecidableEq, Inhabited

/-- types.go:15-19 `Payload`.  nil and empty `Errors` are not distinguished (util.go:99-102 maps nil to empty). -/
structure Payload where
  status : Str := []
  errors : List PayloadError := []
  config : List Config := []
deriving Repr, Inhabited

/-- Result of running a Go function that returns `(T, error)`: a value, an error, a run-time panic, or (only for
functions modelled with fuel) fuel exhausted.  `Proofs` shows `fuel` is never reached with the fuel the model supplies. -/
inductive Res (α : Type) where
  | ok (a : α)
  | err (e : GoErr)
  | panic
  | fuel
deriving Repr, Inhabited

end Verif
