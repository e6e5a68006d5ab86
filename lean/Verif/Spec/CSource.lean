import Verif.Model.Str
/-!
# C files with tables of nginx commands

A file is code with comments; its code without line ends is text with tables `ngx_command_t name[] = { ... };`, whose entries start with
`ngx_string("name"), masks,`.
-/
namespace Verif.Spec

/-! ## Comments -/

/-- Code, a comment up to the end of its line, or a comment between `/*` and `*/`. -/
inductive CPart where
  | code (s : Str)
  | line (s : Str)
  | block (s : Str)

def CPart.text : CPart → Str
  | .code s => s
  | .line s => c!"//" ++ s
  | .block s => c!"/*" ++ s ++ c!"*/"

/-- The code of a part. -/
def CPart.codeOf : CPart → Str
  | .code s => s
  | _ => []

/-- The parts are what a C compiler sees, and no block comment contains `//` or is directly followed by a slash.  (Strings are not special: code must not
contain `//` or `/*` in strings either.) -/
def PartsOk : List CPart → Prop
  | [] => True
  | .code s :: ps => ¬ c!"//" <:+: s ∧ ¬ c!"/*" <:+: s ∧ s.getLast? ≠ some '/' ∧ PartsOk ps
  | .line s :: ps => '\n' ∉ s ∧ (ps = [] ∨ ∃ r qs, ps = .code ('\n' :: r) :: qs) ∧ PartsOk ps
  | .block s :: ps => ¬ c!"*/" <:+: s ∧ ¬ c!"//" <:+: s ∧ (ps = [] ∨ ∃ c r qs, ps = .code (c :: r) :: qs ∧ c ≠ '/') ∧ PartsOk ps

/-! ## Lines -/

/-- Lines, each with the flag whether it ends in `\r\n`, not `\n`, and the text after the last line end. -/
def unlines (ls : List (Str × Bool)) (last : Str) : Str :=
  (ls.flatMap fun l => l.1 ++ (if l.2 then c!"\r\n" else c!"\n")) ++ last

/-- The lines without their ends. -/
def joined (ls : List (Str × Bool)) (last : Str) : Str := (ls.flatMap (·.1)) ++ last

/-- The lines do not contain or end in parts of line ends. -/
def LinesOk (ls : List (Str × Bool)) (last : Str) : Prop :=
  (∀ l ∈ ls, '\n' ∉ l.1 ∧ l.1.getLast? ≠ some '\r') ∧ '\n' ∉ last

/-! ## Tables -/

def CSpaces (s : Str) : Prop := ∀ c ∈ s, c ∈ [' ', '\t', '\r', '\x0c']
def CName (s : Str) : Prop := s ≠ [] ∧ ∀ c ∈ s, c.isAlphanum = true ∨ c = '_'

/-- An entry with the text before it: `{ ngx_string("name"), masks,`. `junk` stands between the closing parenthesis and the comma. -/
structure CEntry where
  gap : Str
  name : Str
  junk : Str
  mask : Str

def entryMark : Str := c!"ngx_string(\""

def CEntry.text (e : CEntry) : Str := e.gap ++ entryMark ++ e.name ++ c!"\")" ++ e.junk ++ c!"," ++ e.mask ++ c!","

def CEntry.Ok (e : CEntry) : Prop := ¬ entryMark <:+: e.gap ∧ ¬ c!"\")" <:+: e.name ∧ ',' ∉ e.junk ∧ ',' ∉ e.mask

/-- A table with the text before it; `tail` is the text after the last entry's masks. -/
structure CTable where
  gap : Str
  sp1 : Str
  name : Str
  sp2 : Str
  sp3 : Str
  entries : List CEntry
  tail : Str
  sp4 : Str

def tableMark : Str := c!"ngx_command_t"

def CTable.body (t : CTable) : Str := t.entries.flatMap CEntry.text ++ t.tail

def CTable.text (t : CTable) : Str :=
  t.gap ++ tableMark ++ t.sp1 ++ t.name ++ c!"[]" ++ t.sp2 ++ c!"=" ++ t.sp3 ++ c!"{" ++ t.body ++ c!"}" ++ t.sp4 ++ c!";"

/-- The text has the head of a table. -/
def HasHead (s : Str) : Prop := ∃ a w n b, s = a ++ tableMark ++ w ++ n ++ c!"[]" ++ b ∧ w ≠ [] ∧ CSpaces w ∧ CName n

/-- The text has a closing brace followed by a semicolon. -/
def HasClose (s : Str) : Prop := ∃ a w b, s = a ++ '}' :: w ++ ';' :: b ∧ CSpaces w

def CTable.Ok (t : CTable) : Prop :=
  ¬ HasHead t.gap ∧ t.sp1 ≠ [] ∧ CSpaces t.sp1 ∧ CName t.name ∧ CSpaces t.sp2 ∧ CSpaces t.sp3 ∧ CSpaces t.sp4 ∧
  (∀ e ∈ t.entries, e.Ok) ∧ ¬ entryMark <:+: t.tail ∧ ¬ HasClose t.body

/-- Tables and the text after the last one. -/
def sourceText (ts : List CTable) (last : Str) : Str := ts.flatMap CTable.text ++ last

def SourceOk (ts : List CTable) (last : Str) : Prop := (∀ t ∈ ts, t.Ok) ∧ ¬ HasHead last

/-- The texts of the names and masks of the entries, in order. -/
def definitions (ts : List CTable) : List (Str × Str) := ts.flatMap fun t => t.entries.map fun e => (e.name, e.mask)

end Verif.Spec
