import Verif.Model.Types
/-!
# util.go:89-176, types.go:142-147: combining configs

`performIncludes` (util.go:132-176) streams the expanded directives over unbuffered channels, one goroutine per call;
every reader forwards or collects items in order and the outermost reader stops at the first error.  It is
modelled here by the sequential function that yields the items in order up to the first error; Model/Goroutines has the
goroutines, and C64 shows that their result is that of this function.
-/
namespace Verif

/-- Sequencing: go on only after success. -/
def Res.bind {α β : Type} : Res α → (α → Res β) → Res β
  | .ok a, f => f a
  | .err e, _ => .err e
  | .panic, _ => .panic
  | .fuel, _ => .fuel

/-- util.go:158-168: the error for an index that is too large.  (`BlockCtx` is not set.) -/
def indexError (fromfile : Str) (dir : Directive) (idx : Int) : GoErr :=
  .parse { what := c!"include config with index: " ++ decimal idx, file := some fromfile, line := some dir.line,
           statement := dir.string }

/-- util.go:156-172: the loop over `dir.Includes`.  `inner` is the recursive call of `performIncludes`; a negative
index panics at `old.Config[idx]` (util.go:169). -/
def expandIncludes (configs : List Config) (inner : Str → List Directive → Res (List Directive)) (fromfile : Str)
    (dir : Directive) : List Int → Res (List Directive)
  | [] => .ok []
  | idx :: idxs =>
    if idx ≥ configs.length then .err (indexError fromfile dir idx)
    else if idx < 0 then .panic
    else match configs[idx.toNat]? with
      | none => .panic
      | some cfg =>
        (inner cfg.file cfg.parsed).bind fun ds =>
        (expandIncludes configs inner fromfile dir idxs).bind fun ds' => .ok (ds ++ ds')

mutual
/-- util.go:136-173: one directive of the block. -/
def expandDir (configs : List Config) (inner : Str → List Directive → Res (List Directive)) (fromfile : Str) :
    Directive → Res (List Directive)
  | ⟨dd, dl, dargs, df, dincl, dblock, dcomm, dmap⟩ =>
    (expandOpt configs inner fromfile dblock).bind fun nblock =>
      let dir : Directive := ⟨dd, dl, dargs, df, dincl, nblock, dcomm, dmap⟩
      if !dir.isInclude then .ok [dir]
      else expandIncludes configs inner fromfile dir (dincl.getD [])
/-- util.go:138-149: the block of a block directive. -/
def expandOpt (configs : List Config) (inner : Str → List Directive → Res (List Directive)) (fromfile : Str) :
    Option (List Directive) → Res (Option (List Directive))
  | none => .ok none
  | some ds => (expandList configs inner fromfile ds).bind fun ds => .ok (some ds)
/-- util.go:135-174: the loop over a block. -/
def expandList (configs : List Config) (inner : Str → List Directive → Res (List Directive)) (fromfile : Str) :
    List Directive → Res (List Directive)
  | [] => .ok []
  | d :: ds =>
    (expandDir configs inner fromfile d).bind fun r =>
    (expandList configs inner fromfile ds).bind fun r' => .ok (r ++ r')
end

/-- util.go:132-176 `performIncludes`.  The fuel bounds the depth of nested includes. -/
def performIncludes (configs : List Config) : (fuel : Nat) → Str → List Directive → Res (List Directive)
  | 0, _, _ => .fuel
  | fuel + 1, fromfile, block => expandList configs (performIncludes configs fuel) fromfile block

/-- util.go:89-130 `combineConfigs`, types.go:145-147 `Combined`. -/
def combined (fuel : Nat) (old : Payload) : Res Payload :=
  match old.config with
  | [] => .ok old
  | c0 :: _ =>
    (performIncludes old.config fuel c0.file c0.parsed).bind fun parsed =>
      .ok {
        status := if old.status == [] then c!"ok" else old.status
        errors := old.errors
        config := [{
          file := c0.file
          status := if old.config.any (fun c => c.status == c!"failed") then c!"failed" else c!"ok"
          errors := old.config.flatMap (·.errors)
          parsed := parsed }] }

end Verif
