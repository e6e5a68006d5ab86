import Verif.Model.Combine
/-!
# util.go:89-172: combining configs, with the objects in memory

A heap is a list of objects; an address is a place in this list, and a new object is put at the end.  Slices are addresses of arrays (the library never
changes the length of a slice it was given).  The channels and goroutines are not in this model; Model/Goroutines has them.  Objects that nobody
refers to any more (the copy of an include directive, the smaller arrays that `append` gives up) are left out or left over.
-/
namespace Verif

/-- types.go:40-50 `Directive` in memory. -/
structure Cell where
  directive : Str
  line : Int
  /-- the array of `Args` -/
  args : Nat
  file : Str := []
  /-- the array of `Includes` -/
  includes : Option Nat := none
  /-- the array of `Block` -/
  block : Option Nat := none
  /-- the string `Comment` points to -/
  comment : Option Nat := none
  isMapBlockParameter : Bool := false
deriving DecidableEq, Inhabited

/-- An object in memory. -/
inductive Obj
  | dir (c : Cell)
  | strs (l : List Str)
  | ints (l : List Int)
  | ptrs (l : List Nat)
  | text (s : Str)
  | payErrors (l : List PayloadError)
  | cfgErrors (l : List ConfigError)
deriving DecidableEq

abbrev Heap := List Obj

/-- types.go:29-34 `Config`; `parsed` is the array of `Parsed`, `errors` that of `Errors` (`none` is nil). -/
structure HConfig where
  file : Str
  status : Str
  errors : Option Nat
  parsed : Nat

/-- types.go:15-19 `Payload`. -/
structure HPayload where
  status : Str
  errors : Option Nat
  config : List HConfig

/-- What a goroutine of `performIncludes` has to do. -/
inductive Job
  /-- util.go:136: the directives of a block -/
  | list (fromfile : Str) (as : List Nat)
  /-- util.go:137: one directive -/
  | one (fromfile : Str) (a : Nat)
  /-- util.go:149: the copy of a directive, with its block expanded -/
  | emit (fromfile : Str) (c : Cell)
  /-- util.go:153: the indices of a directive -/
  | incl (fromfile : Str) (c : Cell) (idxs : List Int)

/-- util.go:155-162: the error, whose text is made from the strings in memory. -/
def indexErrorH (h : Heap) (fromfile : Str) (c : Cell) (idx : Int) : GoErr :=
  let args := match h[c.args]? with | some (.strs l) => l | _ => []
  let block := match c.block with | none => 0 | some b => match h[b]? with | some (.ptrs l) => l.length | _ => 0
  .parse { what := c!"include config with index: " ++ decimal idx, file := some fromfile, line := some c.line,
           statement := c.directive ++ c!" " ++ joinStr c!" " args ++ (if block == 0 then [] else c!" {...}") }

/-- util.go:132-172 `performIncludes`: the heap and the addresses of the directives that are sent.  A pointer to nowhere panics. -/
def runH (cfgs : List HConfig) : Nat → Heap → Job → Res (Heap × List Nat)
  | 0, _, _ => .fuel
  | _ + 1, h, .list _ [] => .ok (h, [])
  | n + 1, h, .list f (a :: as) =>
    (runH cfgs n h (.one f a)).bind fun r => (runH cfgs n r.1 (.list f as)).bind fun r' => .ok (r'.1, r.2 ++ r'.2)
  | n + 1, h, .one f a =>
    match h[a]? with
    | some (.dir c) =>
      match c.block with
      | none => runH cfgs n h (.emit f c)
      | some b =>
        match h[b]? with
        | some (.ptrs as) => (runH cfgs n h (.list f as)).bind fun r => runH cfgs n (r.1 ++ [.ptrs r.2]) (.emit f { c with block := some r.1.length })
        | _ => .panic
    | _ => .panic
  | n + 1, h, .emit f c =>
    if c.directive = c!"include" then
      match c.includes with
      | none => .ok (h ++ [.dir c], [h.length])
      | some is =>
        match h[is]? with
        | some (.ints idxs) => runH cfgs n h (.incl f c idxs)
        | _ => .panic
    else .ok (h ++ [.dir c], [h.length])
  | _ + 1, h, .incl _ _ [] => .ok (h, [])
  | n + 1, h, .incl f c (idx :: idxs) =>
    if idx ≥ cfgs.length then .err (indexErrorH h f c idx)
    else if idx < 0 then .panic
    else match cfgs[idx.toNat]? with
      | none => .panic
      | some cfg =>
        match h[cfg.parsed]? with
        | some (.ptrs as) => (runH cfgs n h (.list cfg.file as)).bind fun r => (runH cfgs n r.1 (.incl f c idxs)).bind fun r' => .ok (r'.1, r.2 ++ r'.2)
        | _ => .panic

/-- The elements of the slice of errors of a config. -/
def HConfig.errorList (h : Heap) (c : HConfig) : List ConfigError :=
  match c.errors with
  | none => []
  | some e => match h[e]? with | some (.cfgErrors l) => l | _ => []

/-- util.go:89-130 `combineConfigs`: the heap and the new payload; `none` is the old payload itself (util.go:91). -/
def combinedH (fuel : Nat) (h : Heap) (p : HPayload) : Res (Heap × Option HPayload) :=
  match p.config with
  | [] => .ok (h, none)
  | c0 :: _ =>
    let h1 : Heap := match p.errors with
      | none => h ++ [.payErrors []]
      | some _ => h
    let errors : Nat := match p.errors with
      | none => h.length
      | some e => e
    match h1[c0.parsed]? with
    | some (.ptrs as) =>
      (runH p.config fuel h1 (.list c0.file as)).bind fun r =>
        .ok (r.1 ++ [.cfgErrors (p.config.flatMap (·.errorList h)), .ptrs r.2],
          some { status := if p.status == [] then c!"ok" else p.status
                 errors := some errors
                 config := [{
                  file := c0.file
                  status := if p.config.any (fun c => c.status == c!"failed") then c!"failed" else c!"ok"
                  errors := some r.1.length
                  parsed := r.1.length + 1 }] })
    | _ => .panic

end Verif
