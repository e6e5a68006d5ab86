import Verif.Model.Str
/-!
# The tokens of a Go file

As in the Go specification, for files without raw strings, runes, numbers and escapes in strings: words, strings, signs of one
character and `:=`; comments are skipped; a semicolon is inserted at the end of a line whose last token is a word other than most keywords, a string,
or a closing bracket.
-/
namespace Verif.Spec

inductive GoTok where
  | word (s : Str)
  | str (s : Str)
  | sign (c : Char)
  | define
  | semi
  /-- something the reader does not know -/
  | bad
deriving Repr, DecidableEq

/-- What the reader is in. -/
inductive GoMode where
  | base
  /-- a word read so far -/
  | word (s : Str)
  | str (s : Str)
  /-- after a slash or a colon -/
  | slash
  | colon
  | line
  /-- a comment, whether it has a line feed, and whether the last character was a star -/
  | block (nl star : Bool)
deriving DecidableEq

def goKeywords : List Str := [c!"case", c!"chan", c!"const", c!"default", c!"defer", c!"else", c!"for", c!"func", c!"go", c!"goto", c!"if", c!"import",
  c!"interface", c!"map", c!"package", c!"range", c!"select", c!"struct", c!"switch", c!"type", c!"var"]

/-- A semicolon is inserted after the token at the end of a line. -/
def GoTok.ends : GoTok → Bool
  | .word s => !goKeywords.contains s
  | .str _ => true
  | .sign c => c == ')' || c == ']' || c == '}'
  | _ => false

def goLetter (c : Char) : Bool := c.isAlphanum || c == '_'

structure GoState where
  mode : GoMode := .base
  /-- a semicolon is due at the next line end -/
  due : Bool := false
deriving DecidableEq

/-- A character outside words, strings and comments. -/
def goBase (due : Bool) (c : Char) : List GoTok × GoState :=
  if c == '\n' then (if due then [.semi] else [], {})
  else if c == ' ' || c == '\t' || c == '\r' then ([], { due := due })
  else if c == '/' then ([], { mode := .slash, due := due })
  else if c == ':' then ([], { mode := .colon })
  else if c == '"' then ([], { mode := .str [] })
  else if goLetter c then ([], { mode := .word [c] })
  else if c!"()[]{},=|".contains c then ([.sign c], { due := (GoTok.sign c).ends })
  else ([.bad], {})

def goStep (st : GoState) (c : Char) : List GoTok × GoState :=
  match st.mode with
  | .base => goBase st.due c
  | .word s =>
    if goLetter c then ([], { mode := .word (s ++ [c]) })
    else let r := goBase (GoTok.word s).ends c; (.word s :: r.1, r.2)
  | .str s =>
    if c == '"' then ([.str s], { due := true })
    else if c == '\n' || c == '\\' then ([.bad], {})
    else ([], { mode := .str (s ++ [c]) })
  | .slash =>
    if c == '/' then ([], { mode := .line, due := st.due })
    else if c == '*' then ([], { mode := .block false false, due := st.due })
    else ([.bad], {})
  | .colon => if c == '=' then ([.define], {}) else let r := goBase false c; (.sign ':' :: r.1, r.2)
  | .line => if c == '\n' then goBase st.due c else ([], st)
  | .block nl star =>
    if star && c == '/' then (if nl && st.due then ([.semi], {}) else ([], { due := st.due }))
    else ([], { mode := .block (nl || c == '\n') (c == '*'), due := st.due })

def goRun (st : GoState) : Str → List GoTok × GoState
  | [] => ([], st)
  | c :: s => let r := goStep st c; let q := goRun r.2 s; (r.1 ++ q.1, q.2)

/-- The tokens of a file, which is read as if a line feed were at its end. -/
def goTokens (s : Str) : List GoTok :=
  let r := goRun {} (s ++ c!"\n")
  if r.2.mode = .base then r.1 else r.1 ++ [.bad]

/-! ## A file with a table -/

/-- A word that is not a keyword. -/
def GoName (s : Str) : Prop := s ≠ [] ∧ (∀ c ∈ s, goLetter c = true) ∧ s ∉ goKeywords

/-- A string that can be written between quotes as it is. -/
def GoPlain (s : Str) : Prop := ∀ c ∈ s, c ≠ '"' ∧ c ≠ '\\' ∧ c ≠ '\n'

/-- `a | b | c` -/
def orTokens : List Str → List GoTok
  | [] => []
  | [x] => [.word x]
  | x :: y :: xs => .word x :: .sign '|' :: orTokens (y :: xs)

/-- `"name": { a | b, c, },` -/
def entryTokens (e : Str × List (List Str)) : List GoTok :=
  [.str e.1, .sign ':', .sign '{'] ++ e.2.flatMap (fun m => orTokens m ++ [.sign ',']) ++ [.sign '}', .sign ',']

/-- `package crossplane`, `var table = map[string][]uint{ entries }`,
`func match(directive string) ([]uint, bool) { m, ok := table[directive]; return m, ok }`. -/
def tableTokens (table match_ : Str) (entries : List (Str × List (List Str))) : List GoTok :=
  [.word c!"package", .word c!"crossplane", .semi, .word c!"var", .word table, .sign '=', .word c!"map", .sign '[', .word c!"string", .sign ']',
   .sign '[', .sign ']', .word c!"uint", .sign '{'] ++ entries.flatMap entryTokens ++ [.sign '}', .semi] ++
  [.word c!"func", .word match_, .sign '(', .word c!"directive", .word c!"string", .sign ')', .sign '(', .sign '[', .sign ']', .word c!"uint",
   .sign ',', .word c!"bool", .sign ')', .sign '{', .word c!"m", .sign ',', .word c!"ok", .define, .word table, .sign '[', .word c!"directive", .sign ']', .semi,
   .word c!"return", .word c!"m", .sign ',', .word c!"ok", .semi, .sign '}', .semi]

end Verif.Spec
