import Verif.Model.Types
/-!
# lex.go: the lexer

`tokenize` (lex.go:134-338) is modelled as a function from the runes delivered by the scanner to the list of
tokens sent on the channel (the channel itself is in `Verif/Model/Chan.lean`, the rune scanner in
`Verif/Model/Utf8.lean`).
-/
namespace Verif

/-- lex.go:17-22 `NgxToken`. -/
structure Tok where
  value : Str
  line : Int
  quoted : Bool := false
  error : Option GoErr := none
deriving Repr, DecidableEq, Inhabited

/-- lex.go:24-32 `state`. -/
inductive LexState where
  | skipSpace | inWord | inComment | inVar | inQuote
deriving Repr, DecidableEq, Inhabited

/-- lex.go:37 `lexerFile`. -/
def lexerFile : Str := c!"lexer"

/-- lex.go:48-54 `Lexer.Lex`: an external lexer reads runes from the shared `SubScanner` (lex.go:107-131) and
sends tokens.  It is modelled as a function of the runes not yet read and of the current line, giving the
tokens it sends before closing its channel and the number of runes it consumed by calls of `Scan`.
(Assumption from the interface's documentation: it closes its channel, and it is deterministic.) -/
abbrev ExtLexer := (rest : List Char) → (line : Int) → List Tok × Nat

/-- lex.go:62 `extLexers map[string]Lexer`. -/
abbrev ExtLexers := Str → Option ExtLexer

/-- lex.go:70-73 `registerLexer`. -/
structure RegisterLexer where
  l : ExtLexer
  stringTokens : List Str

/-- lex.go:75-83 `applyLexOptions`: every listed name is (re)bound to this lexer. -/
def RegisterLexer.apply (rl : RegisterLexer) (m : ExtLexers) : ExtLexers :=
  rl.stringTokens.foldl (fun m s => fun k => if k == s then some rl.l else m k) m

/-- lex.go:92-95: the registrations are applied in order to an empty map. -/
def extLexersOf (lexers : List RegisterLexer) : ExtLexers :=
  lexers.foldl (fun m o => o.apply m) (fun _ => none)

/-- The local variables of `tokenize`, lex.go:135-146.  (`la` and `readNext` are handled in the control flow.) -/
structure LexSt where
  token : Str := []
  tokenLine : Int := 1
  tokenStartLine : Int := 1
  lexState : LexState := .skipSpace
  newToken : Bool := false
  dupSpecialChar : Bool := false
  esc : Bool := false
  depth : Int := 0
  quote : Str := []
  nextTokenIsDirective : Bool := true
deriving Repr, DecidableEq, Inhabited

/-- lex.go:151-155 `emit`: the token sent ... -/
def LexSt.emitTok (st : LexSt) (line : Int) (quoted : Bool) (err : Option GoErr) : Tok :=
  { value := st.token, line := line, quoted := quoted, error := err }

/-- ... and the state afterwards (`token.Reset()`, `lexState = skipSpace`). -/
def LexSt.reset (st : LexSt) : LexSt := { st with token := [], lexState := .skipSpace }

/-- The `ParseError` literals of lex.go:269-273, 287, 334. -/
def lexError (what : Str) (line : Int) : GoErr :=
  .parse { what := what, file := some lexerFile, line := some line }

/-- Is `la` one of the special characters, lex.go:261. -/
def isSpecial (la : Str) : Bool := la == ['{'] || la == ['}'] || la == [';']

/-- lex.go:260-298: a special character in a word.  `none` as new state means `close(tokenCh); return`. -/
def lexSpecial (st : LexSt) (la : Str) : List Tok × Option LexSt :=
  -- lex.go:263-265
  let out1 := if st.token.length > 0 then [st.emitTok st.tokenStartLine false none] else []
  let st := if st.token.length > 0 then st.reset else st
  -- lex.go:267-276
  if st.dupSpecialChar && la != ['}'] then
    (out1 ++ [st.emitTok st.tokenStartLine false
      (some (lexError (c!"unexpected \"" ++ la ++ c!"\"") st.tokenLine))], none)
  else
    -- lex.go:278-283
    let st := { st with dupSpecialChar := true }
    let st := if la == ['{'] then { st with depth := st.depth + 1 } else st
    let st := if la == ['}'] then { st with depth := st.depth - 1 } else st
    -- lex.go:284-291
    if la == ['}'] && st.depth < 0 then
      (out1 ++ [st.emitTok st.tokenStartLine false
        (some (lexError c!"unexpected \"}\"" st.tokenLine))], none)
    else
      -- lex.go:293-297
      let st := { st with token := st.token ++ la }
      (out1 ++ [st.emitTok st.tokenStartLine false none],
        some { st.reset with nextTokenIsDirective := true })

/-- lex.go:218-301, the `inWord` case of the switch. -/
def lexInWord (st : LexSt) (la : Str) : List Tok × Option LexSt :=
  -- lex.go:219-228
  if st.newToken && la == ['#'] then
    ([], some { st with
      newToken := false, token := st.token ++ la, nextTokenIsDirective := false,
      lexState := .inComment, tokenStartLine := st.tokenLine })
  else
    let st := { st with newToken := false }
    -- lex.go:230-234
    if isSpace la then
      ([st.emitTok st.tokenStartLine false none], some { st.reset with nextTokenIsDirective := false })
    -- lex.go:236-243
    else if st.token.length > 0 && hasSuffix st.token ['$'] && la == ['{'] then
      ([], some { st with
        nextTokenIsDirective := false, token := st.token ++ la, lexState := .inVar,
        dupSpecialChar := false })
    -- lex.go:245-258
    else if la == ['"'] || la == ['\''] then
      if st.token.length > 0 then
        ([], some { st with token := st.token ++ la, dupSpecialChar := false })
      else
        ([], some { st with
          quote := la, lexState := .inQuote, tokenStartLine := st.tokenLine, dupSpecialChar := false })
    -- lex.go:260-298
    else if isSpecial la then lexSpecial st la
    -- lex.go:300-301
    else ([], some { st with dupSpecialChar := false, token := st.token ++ la })

/-- lex.go:209-327, the switch on `lexState`.  The re-evaluation requested by the `skipSpace` case
(`readNext = false`, lex.go:211-216) goes through lines 158-207 with the same `la` without effect - `la` is neither
a CR nor a lone backslash, `esc` is false and `token` is empty in state `skipSpace` - and lands in the
`inWord` case, so it is modelled by calling `lexInWord` directly. -/
def lexSwitch (st : LexSt) (la : Str) : List Tok × Option LexSt :=
  match st.lexState with
  | .skipSpace =>
    if !isSpace la then
      lexInWord { st with lexState := .inWord, newToken := true, tokenStartLine := st.tokenLine } la
    else ([], some st)
  | .inWord => lexInWord st la
  | .inComment =>
    -- lex.go:303-308
    if isEOL la then ([st.emitTok st.tokenStartLine false none], some st.reset)
    else ([], some { st with token := st.token ++ la })
  | .inVar =>
    -- lex.go:310-316
    let st := { st with token := st.token ++ la }
    if !hasSuffix st.token ['}'] && !isSpace la then ([], some st)
    else ([], some { st with lexState := .inWord })
  | .inQuote =>
    -- lex.go:318-327
    if la == st.quote then ([st.emitTok st.tokenStartLine true none], some st.reset)
    else
      let la := if la == '\\' :: st.quote then st.quote else la
      ([], some { st with token := st.token ++ la })

/-- lex.go:330-337, after the loop. -/
def lexFinish (st : LexSt) : List Tok :=
  let out1 := if st.token.length > 0 then
    [st.emitTok st.tokenStartLine (st.lexState == .inQuote) none] else []
  let st := if st.token.length > 0 then st.reset else st
  out1 ++ (if st.depth > 0 then
    [st.emitTok st.tokenStartLine false
      (some (lexError c!"unexpected end of file, expecting \"}\"" st.tokenLine))] else [])

/-- number of line feeds in a list of runes. -/
def countNL (cs : List Char) : Nat := cs.count '\n'

/-- lex.go:157-338, the loop of `tokenize`.  The first argument counts runes already consumed by an external
lexer that remain to be skipped in this list (the scanner is shared, so the loop continues after them);
it is 0 except right after an external lexer returned. -/
def tokenizeLoop (ext : ExtLexers) : Nat → LexSt → List Char → List Tok
  | _, st, [] => lexFinish st
  | skip + 1, st, _ :: cs => tokenizeLoop ext skip st cs
  | 0, st, c :: cs =>
    -- lex.go:163-167
    let st := if c == '\n' then { st with tokenLine := st.tokenLine + 1, nextTokenIsDirective := true } else st
    -- lex.go:172-175 (the second disjunct of line 173 is unreachable: `la` is a single rune here)
    if c == '\r' then tokenizeLoop ext 0 st cs
    -- lex.go:177-180
    else if c == '\\' && !st.esc then tokenizeLoop ext 0 { st with esc := true } cs
    else
      -- lex.go:181-184
      let la := if st.esc then ['\\', c] else [c]
      let st := { st with esc := false }
      -- lex.go:186-207
      match (if st.token.length > 0 && st.nextTokenIsDirective then ext st.token else none) with
      | some lx =>
        let lastLexState := st.lexState
        let nameTok := st.emitTok st.tokenStartLine (st.lexState == .inQuote) none
        let r := lx cs st.tokenLine
        let st := { st.reset with tokenLine := st.tokenLine + countNL (cs.take r.2) }
        if lastLexState == .inQuote && la == st.quote then
          nameTok :: r.1 ++ tokenizeLoop ext r.2 st cs
        else
          match lexSwitch st la with
          | (out, none) => nameTok :: r.1 ++ out
          | (out, some st') => nameTok :: r.1 ++ out ++ tokenizeLoop ext r.2 st' cs
      | none =>
        match lexSwitch st la with
        | (out, none) => out
        | (out, some st') => out ++ tokenizeLoop ext 0 st' cs

/-- lex.go:92-100 `LexWithOptions`, as the list of tokens sent on the channel. -/
def lexWith (ext : ExtLexers) (input : List Char) : List Tok := tokenizeLoop ext 0 {} input

/-- lex.go:102-104 `Lex`. -/
def lex (input : List Char) : List Tok := lexWith (fun _ => none) input

end Verif
