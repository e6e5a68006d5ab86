import Verif.Spec.LuaText
/-!
# Texts with external blocks and carriage returns
-/
namespace Verif.Spec

/-- A chunk with carriage returns: `raw` is the text of its items and its name with any carriage returns in it. -/
structure RawChunk where
  chunk : Chunk
  raw : Str

/-- The text of chunks with carriage returns and of what follows. -/
def rawText (cs : List RawChunk) (rawLast : Str) : Str := cs.flatMap (fun c => c.raw ++ c.chunk.sep :: c.chunk.body) ++ rawLast

/-- The tokens: those of the items, and at each name those of the lexer of the name for the text as it is. -/
def rawToks (ext : ExtLexers) (last : List Item) (rawLast : Str) : List RawChunk → Int → Int → Nat → Bool → List Tok
  | [], line, start, depth, dup => specToks line start depth dup false last
  | c :: cs, line, start, depth, dup =>
    specThen (fun line _ depth _ =>
      ⟨c.chunk.name, line, false, none⟩ ::
        ((match ext c.chunk.name with
          | some lx => (lx (c.chunk.body ++ rawText cs rawLast) (line + nls [c.chunk.sep])).1
          | none => []) ++
          rawToks ext last rawLast cs (line + nls [c.chunk.sep] + nls c.chunk.body) line depth false)) line start depth dup false c.chunk.items

/-- As `Fits`, with carriage returns anywhere between the blocks. -/
def FitsRaw (ext : ExtLexers) (last : List Item) (rawLast d : Str) : Bool → List RawChunk → Prop
  | dir, [] => rawLast.filter (· ≠ '\r') = unlex last ++ d ∧ WF last ∧ Unregistered ext (dirNames dir last)
  | dir, c :: cs =>
    c.raw.filter (· ≠ '\r') = unlex c.chunk.items ++ c.chunk.name ∧
    WF (c.chunk.items ++ [.word (c.chunk.name.map .plain)]) ∧ PlainName c.chunk.name ∧ dirAfter dir c.chunk.items = true ∧
    Unregistered ext (dirNames dir c.chunk.items) ∧ (∀ n, n ≠ [] → n <+: c.chunk.name → n ≠ c.chunk.name → ext n = none) ∧
    isSpaceRune c.chunk.sep = true ∧ c.chunk.sep ≠ '\r' ∧
    (∃ lx, ext c.chunk.name = some lx ∧ ∀ line, (lx (c.chunk.body ++ rawText cs rawLast) line).2 = c.chunk.body.length) ∧
    FitsRaw ext last rawLast d true cs

/-- Lua blocks with carriage returns: in the Lua blocks themselves they stay. -/
structure RawLua where
  block : LuaBlock
  raw : Str

/-- The text of Lua blocks with carriage returns and of what follows. -/
def rawLuaText (bs : List RawLua) (rawLast : Str) : Str := bs.flatMap (fun b => b.raw ++ b.block.sep :: b.block.body) ++ rawLast

/-- The texts between the blocks are those of the items, with carriage returns anywhere. -/
def OnlyReturns (bs : List RawLua) : Prop := ∀ b ∈ bs, b.raw.filter (· ≠ '\r') = unlex b.block.items ++ b.block.name

end Verif.Spec
