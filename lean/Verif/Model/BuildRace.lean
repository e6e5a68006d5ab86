import Verif.Model.Build
/-!
# build.go: several goroutines call `Build` with the same options

The accesses to the shared options are steps of their own; they are taken to be sequentially consistent, the weakest case for the claims that something goes wrong (in Go these
accesses are a data race, and writes to one map at the same time may stop the program).  Rendering the body reads the options at every directive; here it is one step, which makes
no difference where the options do not change.
-/
namespace Verif

/-- Where a goroutine is in `Build` (build.go:128-156). -/
inductive BuildPc
  /-- build.go:129, about to read `Indent` -/
  | start
  /-- build.go:130, about to write `Indent` -/
  | setIndent
  /-- build.go:140, about to read `extBuilders` -/
  | check
  /-- build.go:141 and 39, about to read `extBuilders` for the next registration -/
  | apply (regs : List RegisterBuilder)
  /-- build.go:40, about to write `extBuilders` -/
  | make (rb : RegisterBuilder) (regs : List RegisterBuilder)
  /-- build.go:43-45, about to write names into the map -/
  | insert (b : Builder) (names : List Str) (regs : List RegisterBuilder)
  /-- build.go:146-147, about to render -/
  | render
  /-- the text written; `none` is a panic -/
  | done (text : Option Str)

/-- The goroutine is about to write to the options. -/
def BuildPc.Writes : BuildPc → Prop
  | .setIndent => True
  | .make _ _ => True
  | .insert _ (_ :: _) _ => True
  | _ => False

/-- One step of a goroutine that builds `config`. -/
def buildStep (isPrint : Char → Bool) (config : Config) (o : BuildOptions) : BuildPc → Option (BuildOptions × BuildPc)
  | .start => some (o, if o.indent == 0 then .setIndent else .check)
  | .setIndent => some ({ o with indent := 4 }, .check)
  | .check => some (o, if o.extBuilders.isNone then .apply o.builders else .render)
  | .apply [] => some (o, .render)
  | .apply (rb :: regs) => some (o, if o.extBuilders.isNone then .make rb regs else .insert rb.b rb.directives regs)
  | .make rb regs => some ({ o with extBuilders := some fun _ => none }, .insert rb.b rb.directives regs)
  | .insert _ [] regs => some (o, .apply regs)
  | .insert b (s :: names) regs => some ({ o with extBuilders := o.extBuilders.map fun m => fun k => if k == s then some b else m k }, .insert b names regs)
  | .render => some (o, .done ((buildBody isPrint o config.parsed).map fun body => (if o.header then header else []) ++ body))
  | .done _ => none

/-- The shared options and the goroutines, of which there may be any number. -/
abbrev BuildState := BuildOptions × (Nat → BuildPc)

/-- The scheduler lets one goroutine make a step. -/
inductive BuildSched (isPrint : Char → Bool) (configs : Nat → Config) : BuildState → BuildState → Prop
  | step {o o' : BuildOptions} {gs : Nat → BuildPc} {pc : BuildPc} (i : Nat) : buildStep isPrint (configs i) o (gs i) = some (o', pc) →
      BuildSched isPrint configs (o, gs) (o', fun j => if j = i then pc else gs j)

/-- The states that are reached under some schedule. -/
inductive BuildReach (isPrint : Char → Bool) (configs : Nat → Config) (s : BuildState) : BuildState → Prop
  | refl : BuildReach isPrint configs s s
  | tail {t u : BuildState} : BuildReach isPrint configs s t → BuildSched isPrint configs t u → BuildReach isPrint configs s u

end Verif
