import Verif.Spec.Items
/-!
# Specification of Lua blocks: braces outside quotes
-/
namespace Verif.Spec

/-- The characters outside quotes; `q` is the quote that is open at the start. -/
def unquoted : Option Char → Str → Str
  | _, [] => []
  | none, c :: cs => if c = '"' ∨ c = '\'' then unquoted (some c) cs else c :: unquoted none cs
  | some k, c :: cs => if c = k then unquoted none cs else unquoted (some k) cs

/-- The quote that is open at the end. -/
def openQuote : Option Char → Str → Option Char
  | q, [] => q
  | none, c :: cs => if c = '"' ∨ c = '\'' then openQuote (some c) cs else openQuote none cs
  | some k, c :: cs => if c = k then openQuote none cs else openQuote (some k) cs

/-- Code with closed quotes whose braces outside quotes are balanced. -/
def LuaCode (code : Str) : Prop := openQuote none code = none ∧ Balanced (unquoted none code)

end Verif.Spec
