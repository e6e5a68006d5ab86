import Verif.Model.Lex
/-!
# Specification of the lexical structure of a configuration text

A text (without carriage returns) is a sequence of items: whitespace characters, words, quoted strings, comments and the
special characters.  `unlex` writes the items, `specToks` says which tokens they stand for.  Independent of the
lexer's state machine.
-/
namespace Verif.Spec

/-- A character, or a character preceded by a backslash. -/
inductive U where
  | plain (c : Char)
  | esc (c : Char)
deriving Repr, DecidableEq

/-- The character of a unit, without the backslash. -/
def U.char : U → Char
  | .plain c => c
  | .esc c => c

/-- The text of a unit. -/
def U.text : U → Str
  | .plain c => [c]
  | .esc c => ['\\', c]

/-- The text of a sequence of units. -/
def textOf (us : List U) : Str := us.flatMap U.text

/-- The value of a quoted string: the text between the quotes, where a backslash before the quote is dropped. -/
def quotedValue (q : Char) (us : List U) : Str :=
  us.flatMap fun u => if u = .esc q then [q] else u.text

/-- A unit is well formed: no carriage return; a plain unit is not a backslash. -/
def U.wf : U → Prop
  | .plain c => c ≠ '\\' ∧ c ≠ '\r'
  | .esc c => c ≠ '\r'

/-- How a comment ends. -/
inductive CommentEnd where
  /-- a line feed -/
  | nl
  /-- a line feed preceded by a backslash (the backslash is lost) -/
  | escNl
  /-- end of file -/
  | eof
deriving Repr, DecidableEq

/-- The text of the end of a comment. -/
def CommentEnd.text : CommentEnd → Str
  | .nl => ['\n']
  | .escNl => ['\\', '\n']
  | .eof => []

/-- Lexical items. -/
inductive Item where
  | space (c : Char)
  | special (c : Char)
  | word (us : List U)
  /-- `closed = false`: end of file before the closing quote -/
  | quoted (q : Char) (us : List U) (closed : Bool)
  | comment (us : List U) (e : CommentEnd)
deriving Repr, DecidableEq

/-- The text of an item. -/
def Item.text : Item → Str
  | .space c => [c]
  | .special c => [c]
  | .word us => textOf us
  | .quoted q us closed => q :: textOf us ++ (if closed then [q] else [])
  | .comment us e => '#' :: textOf us ++ e.text

/-- The text of a sequence of items. -/
def unlex (items : List Item) : Str := items.flatMap Item.text

/-- Special characters. -/
def isSpecialChar (c : Char) : Bool := c = '{' || c = '}' || c = ';'

/-- Where we are in a word: outside `${...}` (and whether the last character was `$`), or inside. -/
inductive WordPos where
  | out (dollar : Bool)
  | var
deriving Repr, DecidableEq

/-- Reading one more unit of a word; `none`: the unit does not belong to the word.  Outside `${...}` a word ends at
whitespace or a special character; `{` right after `$` opens `${...}`, which ends with `}` or whitespace. -/
def WordPos.next : WordPos → U → Option WordPos
  | .out dollar, u =>
    match u with
    | .plain c =>
      if isSpaceRune c then none
      else if c = '{' ∧ dollar then some .var
      else if isSpecialChar c then none
      else some (.out (c = '$'))
    | .esc c => some (.out (c = '$'))
  | .var, u =>
    if u.char = '}' then some (.out false)
    else match u with
      | .plain c => if isSpaceRune c then some (.out false) else some .var
      | .esc _ => some .var

/-- Reading a sequence of units of a word. -/
def WordPos.run (p : WordPos) : List U → Option WordPos
  | [] => some p
  | u :: us => (p.next u).bind (fun p => WordPos.run p us)

/-- A unit that can start a word. -/
def startsWord : U → Prop
  | .plain c => ¬ isSpaceRune c ∧ ¬ isSpecialChar c ∧ c ≠ '"' ∧ c ≠ '\'' ∧ c ≠ '#'
  | .esc _ => True

/-- What may follow a word that ends in position `p`: nothing, whitespace, or a special character (other than the `{`
that would open `${`). -/
def wordEnd : WordPos → List Item → Prop
  | _, [] => True
  | .out _, .space _ :: _ => True
  | .out dollar, .special c :: _ => ¬ (c = '{' ∧ dollar)
  | _, _ => False

/-- Well-formed sequences of items. -/
def WF : List Item → Prop
  | [] => True
  | .space c :: rest => isSpaceRune c ∧ c ≠ '\r' ∧ WF rest
  | .special c :: rest => isSpecialChar c ∧ WF rest
  | .word us :: rest =>
      (∀ u ∈ us, u.wf) ∧
      (∃ u us', us = u :: us' ∧ startsWord u) ∧
      (∃ p, WordPos.run (.out false) us = some p ∧ wordEnd p rest) ∧
      WF rest
  | .quoted q us closed :: rest =>
      (q = '"' ∨ q = '\'') ∧ (∀ u ∈ us, u.wf ∧ u ≠ .plain q) ∧ (closed = false → rest = []) ∧ WF rest
  | .comment us e :: rest =>
      (∀ u ∈ us, u.wf ∧ u.char ≠ '\n') ∧ (e = .eof → rest = []) ∧ WF rest

/-- The error of the lexer's pseudo file. -/
def err (what : Str) (line : Int) : GoErr :=
  .parse { what := what, file := some c!"lexer", line := some line }

/-- Number of line feeds. -/
def nls (s : Str) : Int := s.count '\n'

/-- The line on which a word starting on line `line` is reported: a word that starts with an escaped line feed is
reported on the following line. -/
def wordLine (line : Int) : List U → Int
  | .esc '\n' :: _ => line + 1
  | _ => line

/-- The tokens of a sequence of items.
`line`: current line; `start`: line where the latest token started; `depth`: open braces; `dup`: the latest token (comments
and whitespace aside) was a special character; `glued`: a word ends right here (a special character directly
after a word is reported on the line where the word started). -/
def specToks (line start : Int) (depth : Nat) (dup glued : Bool) : List Item → List Tok
  | [] =>
    if depth > 0 then [⟨[], start, false, some (err c!"unexpected end of file, expecting \"}\"" line)⟩] else []
  | .space c :: rest => specToks (line + nls [c]) start depth dup false rest
  | .word us :: rest =>
    ⟨textOf us, wordLine line us, false, none⟩ ::
      specToks (line + nls (textOf us)) (wordLine line us) depth false true rest
  | .quoted q us closed :: rest =>
    let v := quotedValue q us
    (if closed ∨ v ≠ [] then [⟨v, line, true, none⟩] else []) ++
      specToks (line + nls (textOf us)) line depth false false rest
  | .comment us e :: rest =>
    ⟨'#' :: textOf us, line, false, none⟩ :: specToks (line + nls e.text) line depth dup false rest
  | .special c :: rest =>
    let start := if glued then start else line
    if dup ∧ c ≠ '}' then
      [⟨[], start, false, some (err (c!"unexpected \"" ++ [c] ++ c!"\"") line)⟩]
    else if c = '}' ∧ depth = 0 then
      [⟨[], start, false, some (err c!"unexpected \"}\"" line)⟩]
    else
      ⟨[c], start, false, none⟩ ::
        specToks line start (if c = '{' then depth + 1 else if c = '}' then depth - 1 else depth) true false rest

/-- The tokens of a whole text. -/
def toksOf (items : List Item) : List Tok := specToks 1 1 0 false false items

/-- What may be left at the very end of a text: nothing, or a single backslash. -/
def Dangling (d : Str) : Prop := d = [] ∨ d = ['\\']

/-- The line on which each item other than whitespace starts. -/
def itemLines (line : Int) : List Item → List Int
  | [] => []
  | .space c :: rest => itemLines (line + nls [c]) rest
  | i :: rest => line :: itemLines (line + nls i.text) rest

/-- The special characters of a text, in order. -/
def specials : List Item → List Char
  | [] => []
  | .special c :: rest => c :: specials rest
  | _ :: rest => specials rest

/-- Braces are balanced: no prefix closes more than it opens, and all is closed at the end. -/
def Balanced (cs : List Char) : Prop :=
  (∀ p, p <+: cs → p.count '}' ≤ p.count '{') ∧ cs.count '}' = cs.count '{'

/-- No `;` or `{` follows another special character with only whitespace and comments between them.
`prev`: the item before (whitespace and comments aside) is a special character. -/
def NoClash (prev : Bool) : List Item → Prop
  | [] => True
  | .space _ :: rest => NoClash prev rest
  | .comment _ _ :: rest => NoClash prev rest
  | .word _ :: rest => NoClash false rest
  | .quoted _ _ _ :: rest => NoClash false rest
  | .special c :: rest => (prev = true → c = '}') ∧ NoClash true rest

/-- The values an unquoted word can have: it is read as one word from beginning to end. -/
def IsWord (v : Str) : Prop :=
  ∃ us : List U, textOf us = v ∧ (∀ u ∈ us, u.wf) ∧ (∃ u us', us = u :: us' ∧ startsWord u) ∧
    (∃ p, WordPos.run (.out false) us = some p)

end Verif.Spec
