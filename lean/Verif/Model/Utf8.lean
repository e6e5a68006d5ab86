import Verif.Model.Str
/-!
# Rune scanning: `bufio.Scanner` with `bufio.ScanRunes` (lex.go:148-149) over an `io.Reader`

Bytes are natural numbers below 256.  Modelled from the Go standard library: `utf8.DecodeRune`, `utf8.FullRune`,
`bufio.ScanRunes`, and the read loop of `bufio.Scanner.Scan` (the token limit of 64 KiB is never reached since
tokens have at most 4 bytes; the limit on consecutive empty reads is not modelled).
-/
namespace Verif

/-- `utf8.first`/`acceptRanges`: size of the sequence announced by the first byte and the admitted range of the
second byte.  Size 1 for ASCII, size 0 for a byte that cannot start a sequence. -/
def utf8First (b : Nat) : Nat × Nat × Nat :=
  if b < 0x80 then (1, 0, 0)
  else if b < 0xC2 then (0, 0, 0)
  else if b < 0xE0 then (2, 0x80, 0xBF)
  else if b == 0xE0 then (3, 0xA0, 0xBF)
  else if b < 0xED then (3, 0x80, 0xBF)
  else if b == 0xED then (3, 0x80, 0x9F)
  else if b < 0xF0 then (3, 0x80, 0xBF)
  else if b == 0xF0 then (4, 0x90, 0xBF)
  else if b < 0xF4 then (4, 0x80, 0xBF)
  else if b == 0xF4 then (4, 0x80, 0x8F)
  else (0, 0, 0)

/-- a continuation byte. -/
def isCont (b : Nat) : Bool := 0x80 ≤ b && b ≤ 0xBF

/-- U+FFFD `utf8.RuneError`. -/
def runeError : Char := '�'

/-- `utf8.DecodeRune` on non-empty data: the rune and its width; an invalid or incomplete sequence gives
(U+FFFD, 1). -/
def decodeRune : List Nat → Char × Nat
  | [] => (runeError, 0)
  | b0 :: rest =>
    let (size, lo, hi) := utf8First b0
    if size == 1 then (Char.ofNat b0, 1)
    else if size == 0 then (runeError, 1)
    else match rest with
      | [] => (runeError, 1)
      | b1 :: rest =>
        if b1 < lo || hi < b1 then (runeError, 1)
        else if size == 2 then (Char.ofNat ((b0 - 0xC0) * 64 + (b1 - 0x80)), 2)
        else match rest with
          | [] => (runeError, 1)
          | b2 :: rest =>
            if !isCont b2 then (runeError, 1)
            else if size == 3 then
              (Char.ofNat ((b0 - 0xE0) * 4096 + (b1 - 0x80) * 64 + (b2 - 0x80)), 3)
            else match rest with
              | [] => (runeError, 1)
              | b3 :: _ =>
                if !isCont b3 then (runeError, 1)
                else (Char.ofNat ((b0 - 0xF0) * 262144 + (b1 - 0x80) * 4096 + (b2 - 0x80) * 64 + (b3 - 0x80)), 4)

/-- `utf8.FullRune`: more bytes cannot change the decoding of the first rune. -/
def fullRune : List Nat → Bool
  | [] => false
  | b0 :: rest =>
    let (size, lo, hi) := utf8First b0
    if rest.length + 1 ≥ size then true
    else match rest with
      | [] => false
      | b1 :: rest =>
        if b1 < lo || hi < b1 then true
        else match rest with
          | [] => false
          | b2 :: _ => !isCont b2

/-- `bufio.ScanRunes`: `none` asks for more data (or, at end of file with no data, stops); otherwise the rune and
the number of bytes to advance. -/
def scanRunes (data : List Nat) (atEOF : Bool) : Option (Char × Nat) :=
  match data with
  | [] => none
  | b0 :: _ =>
    if b0 < 0x80 then some (Char.ofNat b0, 1)
    else
      let r := decodeRune data
      if r.2 > 1 then some r
      else if !atEOF && !fullRune data then none
      else some (runeError, 1)

/-- The runes delivered from data at end of file. -/
def scanEOF : (fuel : Nat) → List Nat → List Char
  | 0, _ => []
  | fuel + 1, data =>
    match scanRunes data true with
    | none => []
    | some (c, n) => c :: scanEOF fuel (data.drop n)

/-- The runes delivered from buffered data before end of file is known, and the data left in the buffer. -/
def scanSome : (fuel : Nat) → List Nat → List Char × List Nat
  | 0, data => ([], data)
  | fuel + 1, data =>
    match scanRunes data false with
    | none => ([], data)
    | some (c, n) =>
      let r := scanSome fuel (data.drop n)
      (c :: r.1, r.2)

/-- `bufio.Scanner.Scan` until end of file, for a reader that returns the given chunks in successive `Read`s: the
buffer is exhausted before the next `Read`. -/
def scanChunks : (buf : List Nat) → List (List Nat) → List Char
  | buf, [] => scanEOF (buf.length + 1) buf
  | buf, chunk :: chunks =>
    let data := buf ++ chunk
    let r := scanSome (data.length + 1) data
    r.1 ++ scanChunks r.2 chunks

/-- UTF-8 encoding (the inverse direction, used to state the properties and for the output of `Build`:
`[]byte(string)`). -/
def utf8Char (c : Char) : List Nat :=
  let n := c.toNat
  if n < 0x80 then [n]
  else if n < 0x800 then [0xC0 + n / 64, 0x80 + n % 64]
  else if n < 0x10000 then [0xE0 + n / 4096, 0x80 + n / 64 % 64, 0x80 + n % 64]
  else [0xF0 + n / 262144, 0x80 + n / 4096 % 64, 0x80 + n / 64 % 64, 0x80 + n % 64]

/-- UTF-8 encoding of a text. -/
def utf8 (s : Str) : List Nat := s.flatMap utf8Char

end Verif
