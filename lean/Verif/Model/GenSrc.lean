import Verif.Model.Gen
/-!
# internal/generator/generator_util.go: definitions read from the text of a C file

The regular expressions are concatenations of literals and repeated character classes; they are given as such lists, with the
leftmost-first matching of Go's `regexp`: the leftmost match, among those at the same place the one that backtracking finds first.
Texts are sequences of runes (valid UTF-8).
-/
namespace Verif

/-- A part of a regular expression. -/
inductive RePart where
  /-- the characters themselves -/
  | lit (s : Str)
  /-- at least `min` characters of a class; `greedy`: as many as possible first; `cap`: a capturing group around it -/
  | rep (cls : Char → Bool) (min : Nat) (greedy cap : Bool)

/-- The numbers from `a` to `b`, in the order in which they are tried. -/
def tries (a b : Nat) (greedy : Bool) : List Nat :=
  let l := (List.range (b + 1 - a)).map (a + ·)
  if greedy then l.reverse else l

/-- The match at the start of the text: the groups and the text after the match. -/
def matchAt : List RePart → Str → Option (List Str × Str)
  | [], s => some ([], s)
  | .lit t :: ps, s => if t.isPrefixOf s then matchAt ps (s.drop t.length) else none
  | .rep cls min greedy cap :: ps, s =>
    (tries min (s.takeWhile cls).length greedy).findSome? fun k =>
      (matchAt ps (s.drop k)).map fun r => (if cap then s.take k :: r.1 else r.1, r.2)

/-- `FindAllStringSubmatch(s, -1)`, the groups of each match, for expressions that do not match the empty text. `fuel` bounds the number of steps;
the length of the text is enough. -/
def findAllAux (re : List RePart) : (fuel : Nat) → Str → List (List Str)
  | 0, _ => []
  | _, [] => []
  | fuel + 1, c :: s =>
    match matchAt re (c :: s) with
    | some (groups, rest) => groups :: findAllAux re fuel rest
    | none => findAllAux re fuel s

def findAll (re : List RePart) (s : Str) : List (List Str) := findAllAux re s.length s

/-- `ReplaceAllString(s, "")`, likewise. -/
def removeAllAux (re : List RePart) : (fuel : Nat) → Str → Str
  | 0, _ => []
  | _, [] => []
  | fuel + 1, c :: s =>
    match matchAt re (c :: s) with
    | some (_, rest) => removeAllAux re fuel rest
    | none => c :: removeAllAux re fuel s

def removeAll (re : List RePart) (s : Str) : Str := removeAllAux re s.length s

/-- The class `.`: everything but a line feed. -/
def reDot (c : Char) : Bool := c != '\n'
/-- The class `\s`. -/
def reSpace (c : Char) : Bool := c == '\t' || c == '\n' || c == '\x0c' || c == '\r' || c == ' '
/-- The class `\w`. -/
def reWord (c : Char) : Bool := (c.val ≥ 48 && c.val ≤ 57) || (c.val ≥ 65 && c.val ≤ 90) || c == '_' || (c.val ≥ 97 && c.val ≤ 122)

/-- generator_util.go:40 `directivesDefineBlockExtracter`: `ngx_command_t\s+(\w+)\[\]\s*=\s*{(.*?)}\s*;`. -/
def blockRe : List RePart :=
  [.lit c!"ngx_command_t", .rep reSpace 1 true false, .rep reWord 1 true true, .lit c!"[]", .rep reSpace 0 true false, .lit c!"=",
   .rep reSpace 0 true false, .lit c!"{", .rep reDot 0 false true, .lit c!"}", .rep reSpace 0 true false, .lit c!";"]

/-- generator_util.go:47 `singleDirectiveExtracter`: `ngx_string\("(.*?)"\).*?,(.*?),`. -/
def entryRe : List RePart :=
  [.lit c!"ngx_string(\"", .rep reDot 0 false true, .lit c!"\")", .rep reDot 0 false false, .lit c!",", .rep reDot 0 false true, .lit c!","]

/-- generator_util.go:49 `singleLineCommentExtracter`: `//.*`. -/
def lineCommentRe : List RePart := [.lit c!"//", .rep reDot 0 true false]

/-- generator_util.go:51 `multiLineCommentExtracter`: `/\*[\s\S]*?\*/`. -/
def blockCommentRe : List RePart := [.lit c!"/*", .rep (fun _ => true) 0 false false, .lit c!"*/"]

/-- `strings.ReplaceAll(s, "\r\n", "")`. -/
def removeCRLF : Str → Str
  | [] => []
  | '\r' :: '\n' :: s => removeCRLF s
  | c :: s => c :: removeCRLF s

/-- `strings.ReplaceAll(s, "\n", "")`. -/
def removeLF (s : Str) : Str := s.filter (· != '\n')

/-- generator_util.go:111-115: comments and line ends removed. -/
def cleanSource (s : Str) : Str := removeLF (removeCRLF (removeAll blockCommentRe (removeAll lineCommentRe s)))

/-- generator_util.go:118-128: the texts of the names and masks of the definitions. `block[2]` is the second group. -/
def sourceDefs (s : Str) : List (Str × Str) :=
  (findAll blockRe (cleanSource s)).flatMap fun block =>
    (findAll entryRe (block.getD 1 [])).map fun attributes => (attributes.getD 0 [], attributes.getD 1 [])

/-- generator_util.go:103-145 `masksFromFile`, given the text of the file. -/
def masksFromText (s : Str) : Except (Str × Str) MaskMap := masksFromDefs (sourceDefs s) []

end Verif
