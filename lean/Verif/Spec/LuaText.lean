import Verif.Spec.External
import Verif.Spec.LuaCode
import Verif.Model.Lua
/-!
# Specification of texts with Lua blocks
-/
namespace Verif.Spec

/-- Items, the name of a Lua directive, a blank, for `set_by_lua_block` blanks, its argument and a blank, then blanks and the code in braces. -/
structure LuaBlock where
  items : List Item
  name : Str
  sep : Char
  arg : Option (Str × Str × Char)
  ws : Str
  code : Str

/-- The text between the blank after the name and the opening brace. -/
def LuaBlock.lead (b : LuaBlock) : Str :=
  (match b.arg with
    | some (w, a, c) => w ++ (a ++ [c])
    | none => []) ++ b.ws

/-- The text after the blank after the name. -/
def LuaBlock.body (b : LuaBlock) : Str := b.lead ++ '{' :: (b.code ++ ['}'])

/-- A Lua block as the configuration language wants it. -/
def LuaBlock.Ok (b : LuaBlock) : Prop :=
  b.name ∈ luaDirectiveNames ∧ isSpaceRune b.sep = true ∧ b.sep ≠ '\r' ∧ (∀ c ∈ b.ws, isSpaceRune c = true) ∧ LuaCode b.code ∧
  match b.arg with
    | some (w, a, c) => b.name = c!"set_by_lua_block" ∧ (∀ x ∈ w, isSpaceRune x = true) ∧ a ≠ [] ∧ (∀ x ∈ a, isSpaceRune x = false) ∧ isSpaceRune c = true
    | none => b.name ≠ c!"set_by_lua_block"

/-- The text of a Lua block as a chunk. -/
def LuaBlock.chunk (b : LuaBlock) : Chunk := ⟨b.items, b.name, b.sep, b.body⟩

/-- The tokens of a Lua block after its name; `line` is the line after the blank. -/
def LuaBlock.toks (b : LuaBlock) (line : Int) : List Tok :=
  (match b.arg with
    | some (w, a, c) => [⟨a, line + nls (w ++ [c]), false, none⟩]
    | none => []) ++
  [⟨b.code, line + nls b.lead + nls b.code, true, none⟩, ⟨c!";", line + nls b.lead + nls b.code, false, none⟩]

/-- The tokens of a text with Lua blocks, followed by items. -/
def luaToks (last : List Item) : List LuaBlock → Int → Int → Nat → Bool → List Tok
  | [], line, start, depth, dup => specToks line start depth dup false last
  | b :: bs, line, start, depth, dup =>
    specThen (fun line _ depth _ =>
      ⟨b.name, line, false, none⟩ ::
        (b.toks (line + nls [b.sep]) ++ luaToks last bs (line + nls [b.sep] + nls b.body) line depth false)) line start depth dup false b.items

/-- None of these strings begins with the name of a Lua directive. -/
def NoLua (vs : List Str) : Prop := ∀ v ∈ vs, ∀ n ∈ luaDirectiveNames, ¬ n <+: v

/-- Every Lua block is in directive position, and nothing else there looks like one. -/
def FitsLua (last : List Item) : Bool → List LuaBlock → Prop
  | dir, [] => WF last ∧ NoLua (dirNames dir last)
  | dir, b :: bs =>
    WF (b.items ++ [.word (b.name.map .plain)]) ∧ dirAfter dir b.items = true ∧ NoLua (dirNames dir b.items) ∧ b.Ok ∧ FitsLua last true bs

/-- The text of Lua blocks and what follows. -/
def luaText (bs : List LuaBlock) (last : List Item) (d : Str) : Str := chunksText (bs.map LuaBlock.chunk) last d

end Verif.Spec
