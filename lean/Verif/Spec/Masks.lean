import Verif.Model.Str
/-!
# What the bitmasks of a directive mean

After nginx's `src/core/ngx_conf_file.h`: bits 0-7 allow exactly that many arguments, then come block, expression, flag,
any, one-or-more and two-or-more, and from bit 16 on the contexts.
-/
namespace Verif.Spec

/-- The values of a flag: `on` or `off` in any capitalisation. -/
def OnOff (v : Str) : Prop :=
  (∃ a b, v = [a, b] ∧ (a = 'o' ∨ a = 'O') ∧ (b = 'n' ∨ b = 'N')) ∨
  (∃ a b c, v = [a, b, c] ∧ (a = 'o' ∨ a = 'O') ∧ (b = 'f' ∨ b = 'F') ∧ (c = 'f' ∨ c = 'F'))

/-- The arguments are enclosed in parentheses, with something in between. -/
def InParens (args : List Str) : Prop :=
  ∃ first last, args.head? = some first ∧ args.getLast? = some last ∧
    (∃ r, first = '(' :: r) ∧ (∃ r, last = r ++ [')']) ∧
    (args.length > 2 ∨ args.flatten.length > 2)

/-- The mask admits the arguments. -/
def ArgsOk (mask : Nat) (args : List Str) : Prop :=
  (args.length ≤ 7 ∧ mask.testBit args.length = true) ∨
  (mask.testBit 10 = true ∧ ∃ v, args = [v] ∧ OnOff v) ∨
  mask.testBit 11 = true ∨
  (mask.testBit 12 = true ∧ 1 ≤ args.length) ∨
  (mask.testBit 13 = true ∧ 2 ≤ args.length)

/-- The mask admits the statement: expression bit 9, block bit 8, arguments. -/
def MaskOk (mask : Nat) (term : Str) (args : List Str) : Prop :=
  (mask.testBit 9 = true → InParens args) ∧
  (if mask.testBit 8 = true then term = c!"{" else term = c!";") ∧
  ArgsOk mask args

/-- The bit of a context, given as the path of enclosing blocks (nested locations count once). -/
def contextBit (path : List Str) : Option Nat :=
  if path = [] then some 18
  else if path = [c!"mgmt"] then some 17
  else if path = [c!"events"] then some 19
  else if path = [c!"mail"] then some 20
  else if path = [c!"mail", c!"server"] then some 21
  else if path = [c!"stream"] then some 22
  else if path = [c!"stream", c!"server"] then some 23
  else if path = [c!"stream", c!"upstream"] then some 24
  else if path = [c!"http"] then some 25
  else if path = [c!"http", c!"server"] then some 26
  else if path = [c!"http", c!"location"] then some 27
  else if path = [c!"http", c!"upstream"] then some 28
  else if path = [c!"http", c!"server", c!"if"] then some 29
  else if path = [c!"http", c!"location", c!"if"] then some 30
  else if path = [c!"http", c!"location", c!"limit_except"] then some 31
  else if path = [c!"http", c!"oidc_provider"] then some 32
  else none

/-- The masks of a directive and whether it is known, over some sources (each maps a name to its masks, `none` for an
unknown name). -/
def Known (sources : List (Str → Option (List Nat))) (name : Str) : Prop := ∃ f ∈ sources, (f name).isSome = true
def HasMask (sources : List (Str → Option (List Nat))) (name : Str) (m : Nat) : Prop :=
  ∃ f ∈ sources, ∃ ms, f name = some ms ∧ m ∈ ms

/-- The statement `name args term` is acceptable in a context with the given bit (`none`: unknown context). -/
def StmtOk (sources : List (Str → Option (List Nat))) (strict skipCtx skipArgs : Bool) (bit : Option Nat)
    (name : Str) (args : List Str) (term : Str) : Prop :=
  (strict = true → Known sources name) ∧
  ∀ b, bit = some b → Known sources name →
    (skipCtx = true ∨ ∃ m, HasMask sources name m ∧ m.testBit b = true) ∧
    (skipArgs = true ∨ ∃ m, HasMask sources name m ∧ (skipCtx = true ∨ m.testBit b = true) ∧ MaskOk m term args)

end Verif.Spec

namespace Verif.Spec

/-- The map-like blocks. -/
def mapBlocks : List Str :=
  [c!"charset_map", c!"geo", c!"map", c!"match", c!"types", c!"split_clients", c!"geoip2", c!"otel_exporter"]

/-- The number of arguments a parameter of a map-like block may have. -/
def MapArgs (blk name : Str) (n : Nat) : Prop :=
  if blk = c!"geo" ∧ (name = c!"ranges" ∨ name = c!"proxy_recursive") then n = 0
  else if blk = c!"map" ∧ (name = c!"volatile" ∨ name = c!"hostnames") then n = 0
  else if blk = c!"geoip2" ∧ name ≠ c!"auto_reload" then 1 ≤ n
  else if blk = c!"match" ∨ blk = c!"types" then 1 ≤ n
  else n = 1

end Verif.Spec
