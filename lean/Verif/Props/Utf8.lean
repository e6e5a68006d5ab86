import Verif.Proofs.Utf8
import Verif.Model.Lex
/-!
# C09: from bytes to characters
-/
namespace Verif
open Spec

/-- C09.  The characters the lexer sees are determined by the bytes, however they are split into reads: they are the one text
that decodes the bytes in the sense of `Spec.Decodes`. -/
theorem C09_decodes (chunks : List (List Nat)) (s : Str) : scanChunks [] chunks = s ↔ Decodes chunks.flatten s := by
  rw [scanChunks_all, List.nil_append]
  constructor
  · rintro rfl; exact scanAll_decodes _ _ (Nat.le_refl _)
  · intro h; exact (decodes_scanAll h).symm

/-- C09.  Splitting the same bytes differently into reads changes nothing, in particular not the tokens. -/
theorem C09_chunking (chunks1 chunks2 : List (List Nat)) (h : chunks1.flatten = chunks2.flatten) (ext : ExtLexers) :
    lexWith ext (scanChunks [] chunks1) = lexWith ext (scanChunks [] chunks2) := by
  rw [scanChunks_all, scanChunks_all, List.nil_append, List.nil_append, h]

/-- C09.  Valid UTF-8 is preserved, also if a read ends in the middle of a character. -/
theorem C09_utf8 (s : Str) (chunks : List (List Nat)) (h : chunks.flatten = utf8 s) : scanChunks [] chunks = s := by
  rw [scanChunks_all, List.nil_append, h, scanAll_utf8]

/-- `é€` split inside both characters, and a stray byte. -/
example : scanChunks [] [[0xC3], [0xA9, 0xE2], [], [0x82, 0xAC]] = c!"é€" := C09_utf8 _ _ (by decide)
example : scanChunks [] [[0x61, 0xE2, 0x28], [0xA1]] = c!"a�(�" := by decide

end Verif
