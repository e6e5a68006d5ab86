/-!
# Go strings and the standard-library string functions used by the code

A Go `string` that reaches the modelled code is represented by the list of its
Unicode code points (`Str := List Char`; a Lean `Char` is a Unicode scalar value, which
is exactly what a valid UTF-8 sequence decodes to).  Strings holding invalid UTF-8 are outside
this representation: the lexer never produces one (`bufio.ScanRunes` yields U+FFFD for a bad byte,
see `Verif/Model/Utf8.lean`), so only hand-made payloads could contain one.

`len(s)` in bytes is used by the code only in comparisons with 0, 1 and 2 that give the
same answer for the number of code points (see the comments at each use).
-/

namespace Verif

abbrev Str := List Char

open Lean in
/-- `c!"abc"` is the character list `['a', 'b', 'c']`. -/
macro:max "c!" s:str : term => do
  let elems ← s.getString.toList.toArray.mapM fun c => pure (Syntax.mkCharLit c)
  `(([$elems,*] : List Char))

/-- `unicode.IsSpace`: the White_Space property (used by lex.go via `strings.TrimSpace`,
build.go:263,278, util.go:75-76, build.go:115). -/
def isSpaceRune (c : Char) : Bool :=
  c == '\t' || c == '\n' || c == '\x0b' || c == '\x0c' || c == '\r' || c == ' ' ||
  c == '\u0085' || c == '\u00a0' || c == '\u1680' ||
  ('\u2000' ≤ c && c ≤ '\u200a') ||
  c == '\u2028' || c == '\u2029' || c == '\u202f' || c == '\u205f' || c == '\u3000'

/-- `strings.HasPrefix`. -/
def hasPrefix (s p : Str) : Bool := p.isPrefixOf s

/-- `strings.HasSuffix`. -/
def hasSuffix (s p : Str) : Bool := p.isSuffixOf s

/-- `strings.TrimLeftFunc(s, unicode.IsSpace)`. -/
def trimLeftSpace (s : Str) : Str := s.dropWhile isSpaceRune

/-- `strings.TrimRightFunc(s, unicode.IsSpace)`. -/
def trimRightSpace (s : Str) : Str := (s.reverse.dropWhile isSpaceRune).reverse

/-- `strings.TrimSpace`. -/
def trimSpace (s : Str) : Str := trimRightSpace (trimLeftSpace s)

/-- `strings.TrimPrefix` for a one-character prefix. -/
def trimPrefixChar (s : Str) (c : Char) : Str :=
  match s with
  | x :: xs => if x == c then xs else s
  | [] => []

/-- `strings.TrimSuffix` for a one-character suffix. -/
def trimSuffixChar (s : Str) (c : Char) : Str := (trimPrefixChar s.reverse c).reverse

/-- `strings.Join`. -/
def joinStr (sep : Str) : List Str → Str
  | [] => []
  | [x] => x
  | x :: y :: ys => x ++ sep ++ joinStr sep (y :: ys)

/-- `strings.ReplaceAll(s, ab, r)` for a two-character pattern `ab` (leftmost, non-overlapping):
util.go:42 (`\"`), build.go:241 (`\\`). -/
def replaceAll2 (a b : Char) (r : Str) : Str → Str
  | x :: y :: rest =>
    if x == a && y == b then r ++ replaceAll2 a b r rest
    else x :: replaceAll2 a b r (y :: rest)
  | s => s

/-- `strings.ReplaceAll(s, a, r)` for a one-character pattern: util.go:43 (`'`). -/
def replaceAll1 (a : Char) (r : Str) : Str → Str
  | [] => []
  | x :: rest => (if x == a then r else [x]) ++ replaceAll1 a r rest

/-- `strings.ToLower` on one rune, for the only use in the code (util.go:51-54), where the result is compared with
"on" and "off".  Simplification: only ASCII letters are folded.  The comparison is unaffected: no
non-ASCII rune has one of the letters o, n, f as its Go lower case. -/
def lowerChar (c : Char) : Char :=
  if 'A' ≤ c && c ≤ 'Z' then Char.ofNat (c.toNat + 32) else c

/-- `strings.ToLower` (see `lowerChar`). -/
def toLower (s : Str) : Str := s.map lowerChar

/-- `%d` of an `int`. -/
def decimalNat (n : Nat) : Str := (Nat.toDigits 10 n)

/-- `%d` of an `int`. -/
def decimal : Int → Str
  | .ofNat n => decimalNat n
  | .negSucc n => '-' :: decimalNat (n + 1)

/-! ## util.go helpers on strings -/

/-- util.go:21-28 `contains`. -/
def contains (xs : List Str) (x : Str) : Bool := xs.any (fun s => s == x)

/-- util.go:30-32 `isSpace`: `len(strings.TrimSpace(s)) == 0`. -/
def isSpace (s : Str) : Bool := (trimSpace s).length == 0

/-- util.go:34-36 `isEOL`. -/
def isEOL (s : Str) : Bool := hasSuffix s ['\n']

/-- util.go:51-54 `validFlag`. -/
def validFlag (s : Str) : Bool :=
  let l := toLower s
  l == c!"on" || l == c!"off"

end Verif
