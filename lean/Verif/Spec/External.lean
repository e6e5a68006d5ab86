import Verif.Spec.Items
/-!
# Specification of lexing with external lexers

A text is cut into chunks: items that are lexed as usual, a registered name, a blank, and what the external lexer of that name
reads.  After the last chunk there are only items.
-/
namespace Verif.Spec

/-- The values of the tokens in directive position, in the sense of the lexer: at the start, after a special character, after a comment, after a line
feed that does not directly follow a word, after a quoted string in directive position.  A token that contains a line feed, or a word directly
before a line feed, also counts, and so does every comment. -/
def dirNames (dir : Bool) : List Item → List Str
  | [] => []
  | .space c :: rest => dirNames (dir || c == '\n') rest
  | .special _ :: rest => dirNames true rest
  | .word us :: .space c :: rest => (if dir || (textOf us).contains '\n' || c == '\n' then [textOf us] else []) ++ dirNames false rest
  | .word us :: rest => (if dir || (textOf us).contains '\n' then [textOf us] else []) ++ dirNames dir rest
  | .quoted q us _ :: rest => (if dir || (textOf us).contains '\n' then [quotedValue q us] else []) ++ dirNames (dir || (textOf us).contains '\n') rest
  | .comment us _ :: rest => ('#' :: textOf us) :: dirNames true rest

/-- Whether a token after these items is in directive position. -/
def dirAfter (dir : Bool) : List Item → Bool
  | [] => dir
  | .space c :: rest => dirAfter (dir || c == '\n') rest
  | .special _ :: rest => dirAfter true rest
  | .word _ :: .space _ :: rest => dirAfter false rest
  | .word _ :: rest => dirAfter dir rest
  | .quoted _ us _ :: rest => dirAfter (dir || (textOf us).contains '\n') rest
  | .comment _ _ :: rest => dirAfter true rest

/-- No name that is a non-empty beginning of one of these strings is registered. -/
def Unregistered (ext : ExtLexers) (vs : List Str) : Prop := ∀ v ∈ vs, ∀ n, n ≠ [] → n <+: v → ext n = none

/-- The tokens of items (see `specToks`) that are followed by something else: `k line start depth dup` are the tokens of what follows. -/
def specThen (k : Int → Int → Nat → Bool → List Tok) (line start : Int) (depth : Nat) (dup glued : Bool) : List Item → List Tok
  | [] => k line start depth dup
  | .space c :: rest => specThen k (line + nls [c]) start depth dup false rest
  | .word us :: rest =>
    ⟨textOf us, wordLine line us, false, none⟩ :: specThen k (line + nls (textOf us)) (wordLine line us) depth false true rest
  | .quoted q us closed :: rest =>
    let v := quotedValue q us
    (if closed ∨ v ≠ [] then [⟨v, line, true, none⟩] else []) ++ specThen k (line + nls (textOf us)) line depth false false rest
  | .comment us e :: rest =>
    ⟨'#' :: textOf us, line, false, none⟩ :: specThen k (line + nls e.text) line depth dup false rest
  | .special c :: rest =>
    let start := if glued then start else line
    if dup ∧ c ≠ '}' then
      [⟨[], start, false, some (err (c!"unexpected \"" ++ [c] ++ c!"\"") line)⟩]
    else if c = '}' ∧ depth = 0 then
      [⟨[], start, false, some (err c!"unexpected \"}\"" line)⟩]
    else
      ⟨[c], start, false, none⟩ ::
        specThen k line start (if c = '{' then depth + 1 else if c = '}' then depth - 1 else depth) true false rest

/-- At the end of the text. -/
def specEOF (line start : Int) (depth : Nat) (_ : Bool) : List Tok :=
  if depth > 0 then [⟨[], start, false, some (err c!"unexpected end of file, expecting \"}\"" line)⟩] else []

theorem specThen_EOF (items : List Item) : ∀ (line start : Int) (depth : Nat) (dup glued : Bool),
    specThen specEOF line start depth dup glued items = specToks line start depth dup glued items := by
  induction items with
  | nil => intros; rfl
  | cons i rest ih =>
    intro line start depth dup glued
    cases i <;> simp only [specThen, specToks, ih]

/-- Items, a name, a blank and what the external lexer of the name reads. -/
structure Chunk where
  items : List Item
  name : Str
  sep : Char
  body : Str

/-- The text of a chunk. -/
def Chunk.text (c : Chunk) : Str := unlex c.items ++ (c.name ++ c.sep :: c.body)

/-- The text of chunks, of the items after them, and what is left at the end. -/
def chunksText (cs : List Chunk) (last : List Item) (d : Str) : Str := cs.flatMap Chunk.text ++ (unlex last ++ d)

/-- The tokens of chunks and of the items after them. -/
def extToks (ext : ExtLexers) (last : List Item) (d : Str) : List Chunk → Int → Int → Nat → Bool → List Tok
  | [], line, start, depth, dup => specToks line start depth dup false last
  | c :: cs, line, start, depth, dup =>
    specThen (fun line _ depth _ =>
      ⟨c.name, line, false, none⟩ ::
        ((match ext c.name with
          | some lx => (lx (c.body ++ chunksText cs last d) (line + nls [c.sep])).1
          | none => []) ++
          extToks ext last d cs (line + nls [c.sep] + nls c.body) line depth false)) line start depth dup false c.items

/-- A name as external lexers are registered for: no blanks, special characters or backslashes, and no quote or number sign in front. -/
def PlainName (n : Str) : Prop :=
  (∀ c ∈ n, ¬ isSpaceRune c ∧ ¬ isSpecialChar c ∧ c ≠ '\\') ∧ ∃ c r, n = c :: r ∧ c ≠ '"' ∧ c ≠ '\'' ∧ c ≠ '#'

/-- The chunks are what the registered lexers make of the text: every name is registered and in directive position, its lexer reads just the body, and
nothing else in directive position is registered. -/
def Fits (ext : ExtLexers) (last : List Item) (d : Str) : Bool → List Chunk → Prop
  | dir, [] => WF last ∧ Unregistered ext (dirNames dir last)
  | dir, c :: cs =>
    WF (c.items ++ [.word (c.name.map .plain)]) ∧ PlainName c.name ∧ dirAfter dir c.items = true ∧
    Unregistered ext (dirNames dir c.items) ∧ (∀ n, n ≠ [] → n <+: c.name → n ≠ c.name → ext n = none) ∧
    isSpaceRune c.sep = true ∧ c.sep ≠ '\r' ∧
    (∃ lx, ext c.name = some lx ∧ ∀ line, (lx (c.body ++ chunksText cs last d) line).2 = c.body.length) ∧
    Fits ext last d true cs

/-- The values that begin a directive: the first word or quoted string, and the first one after each special character. -/
def firstNames (dir : Bool) : List Item → List Str
  | [] => []
  | .space _ :: rest => firstNames dir rest
  | .comment _ _ :: rest => firstNames dir rest
  | .special _ :: rest => firstNames true rest
  | .word us :: rest => (if dir then [textOf us] else []) ++ firstNames false rest
  | .quoted q us _ :: rest => (if dir then [quotedValue q us] else []) ++ firstNames false rest

end Verif.Spec
