import Verif.Model.Chan
import Verif.Model.Lua
/-!
# The lexer goroutine, the goroutines of the external lexers and the reader

lex.go:189-206: when `tokenize` has read a name with an external lexer, it sends the name, calls `ext.Lex`, which starts a goroutine (lua.go:60) that reads
from the same scanner and sends its tokens over a channel of its own, and forwards these tokens until that channel is closed.  `Verif/Model/Lex.lean` has this as a
function call.  Here the goroutines are state machines that make one scan or one channel operation at a time, and the scheduler picks any enabled step.
-/
namespace Verif

/-- What the goroutine of an external lexer does next. -/
inductive LAct (ρ : Type) where
  /-- `s.Scan()` with the rune `s.Text()` (none at the end of the input) and `s.Line()`, lex.go:114-131 -/
  | scan (k : Option Char → Int → ρ)
  /-- `tokenCh <- t` -/
  | send (t : Tok) (k : ρ)
  /-- `close(tokenCh)` and return -/
  | stop

/-- What `tokenize` does next. -/
inductive TAct (σ ρ : Type) where
  /-- `scanner.Scan()` and `scanner.Text()`, lex.go:159-163 -/
  | scan (k : Option Char → σ)
  /-- `tokenCh <- t` -/
  | send (t : Tok) (k : σ)
  /-- lex.go:194-199: a `SubScanner` with the given line is made and the external lexer started in state `e`; when its channel is closed, `tokenize` goes on with
  the line of the `SubScanner` -/
  | call (e : ρ) (line : Int) (k : Int → σ)
  /-- `close(tokenCh)` and return -/
  | close

/-- Where `tokenize` is. -/
inductive MSt (σ : Type) where
  | run (s : σ)
  /-- lex.go:196: receiving from the external lexer -/
  | drain (k : Int → σ)
  /-- lex.go:197: sending a token of the external lexer -/
  | fwd (t : Tok) (k : Int → σ)
  | closed

/-- The goroutine of the external lexer. -/
inductive XSt (ρ : Type) where
  | none
  | live (r : ρ)
  | closed

/-- The goroutines, their channels, the scanner and the reader. -/
structure ExtSt (σ ρ ι : Type) where
  main : MSt σ
  ext : XSt ρ
  /-- buffer of the external lexer's channel -/
  xbuf : List Tok
  /-- what the shared scanner has not delivered yet -/
  input : List Char
  /-- `SubScanner.tokenLine` -/
  line : Int
  /-- buffer of the token channel -/
  buf : List Tok
  rd : ι

/-- The state when `LexWithOptions` returns. -/
def ExtSt.init {σ ρ ι : Type} (s : σ) (input : List Char) (r : ι) : ExtSt σ ρ ι :=
  { main := .run s, ext := .none, xbuf := [], input := input, line := 0, buf := [], rd := r }

/-- One step of the goroutines; `cap` and `xcap` are the capacities of the two channels. -/
inductive ExtStep {σ ρ ι : Type} (M : σ → TAct σ ρ) (X : ρ → LAct ρ) (R : Reader ι) (cap xcap : Nat) : ExtSt σ ρ ι → ExtSt σ ρ ι → Prop where
  /-- `tokenize` reads a rune -/
  | scan (s k x xb c cs l b r) (h : M s = .scan k) :
      ExtStep M X R cap xcap ⟨.run s, x, xb, c :: cs, l, b, r⟩ ⟨.run (k (some c)), x, xb, cs, l, b, r⟩
  | eof (s k x xb l b r) (h : M s = .scan k) :
      ExtStep M X R cap xcap ⟨.run s, x, xb, [], l, b, r⟩ ⟨.run (k none), x, xb, [], l, b, r⟩
  /-- `tokenize` sends one of its tokens, into the buffer or directly to the reader -/
  | send (s t k x xb cs l b r) (h : M s = .send t k) (hb : b.length < cap) :
      ExtStep M X R cap xcap ⟨.run s, x, xb, cs, l, b, r⟩ ⟨.run k, x, xb, cs, l, b ++ [t], r⟩
  | handoff (s t k x xb cs l r) (h : M s = .send t k) (hw : R.wants r = true) :
      ExtStep M X R cap xcap ⟨.run s, x, xb, cs, l, [], r⟩ ⟨.run k, x, xb, cs, l, [], R.step r (some t)⟩
  /-- `tokenize` starts an external lexer -/
  | call (s e ln k x xb cs l b r) (h : M s = .call e ln k) :
      ExtStep M X R cap xcap ⟨.run s, x, xb, cs, l, b, r⟩ ⟨.drain k, .live e, [], cs, ln, b, r⟩
  /-- `tokenize` closes the token channel -/
  | close (s x xb cs l b r) (h : M s = .close) :
      ExtStep M X R cap xcap ⟨.run s, x, xb, cs, l, b, r⟩ ⟨.closed, x, xb, cs, l, b, r⟩
  /-- the external lexer reads a rune -/
  | xscan (m e k xb c cs l b r) (h : X e = .scan k) :
      ExtStep M X R cap xcap ⟨m, .live e, xb, c :: cs, l, b, r⟩ ⟨m, .live (k (some c) (scanLine l c)), xb, cs, scanLine l c, b, r⟩
  | xeof (m e k xb l b r) (h : X e = .scan k) :
      ExtStep M X R cap xcap ⟨m, .live e, xb, [], l, b, r⟩ ⟨m, .live (k none l), xb, [], l, b, r⟩
  /-- the external lexer sends a token, into the buffer or directly to `tokenize` -/
  | xsend (m e t e' xb cs l b r) (h : X e = .send t e') (hb : xb.length < xcap) :
      ExtStep M X R cap xcap ⟨m, .live e, xb, cs, l, b, r⟩ ⟨m, .live e', xb ++ [t], cs, l, b, r⟩
  | xhandoff (k e t e' cs l b r) (h : X e = .send t e') :
      ExtStep M X R cap xcap ⟨.drain k, .live e, [], cs, l, b, r⟩ ⟨.fwd t k, .live e', [], cs, l, b, r⟩
  /-- the external lexer closes its channel -/
  | xstop (m e xb cs l b r) (h : X e = .stop) :
      ExtStep M X R cap xcap ⟨m, .live e, xb, cs, l, b, r⟩ ⟨m, .closed, xb, cs, l, b, r⟩
  /-- `tokenize` receives from the buffer of the external lexer's channel -/
  | xrecv (k x t xb cs l b r) :
      ExtStep M X R cap xcap ⟨.drain k, x, t :: xb, cs, l, b, r⟩ ⟨.fwd t k, x, xb, cs, l, b, r⟩
  /-- `tokenize` forwards the token -/
  | fwd (t k x xb cs l b r) (hb : b.length < cap) :
      ExtStep M X R cap xcap ⟨.fwd t k, x, xb, cs, l, b, r⟩ ⟨.drain k, x, xb, cs, l, b ++ [t], r⟩
  | fwdHandoff (t k x xb cs l r) (hw : R.wants r = true) :
      ExtStep M X R cap xcap ⟨.fwd t k, x, xb, cs, l, [], r⟩ ⟨.drain k, x, xb, cs, l, [], R.step r (some t)⟩
  /-- the external lexer's channel is closed and empty: `tokenize` goes on, lex.go:199 -/
  | ret (k cs l b r) :
      ExtStep M X R cap xcap ⟨.drain k, .closed, [], cs, l, b, r⟩ ⟨.run (k l), .none, [], cs, l, b, r⟩
  /-- the reader receives -/
  | recv (m x xb cs l t b r) (hw : R.wants r = true) :
      ExtStep M X R cap xcap ⟨m, x, xb, cs, l, t :: b, r⟩ ⟨m, x, xb, cs, l, b, R.step r (some t)⟩
  | recvClosed (x xb cs l r) (hw : R.wants r = true) :
      ExtStep M X R cap xcap ⟨.closed, x, xb, cs, l, [], r⟩ ⟨.closed, x, xb, cs, l, [], R.step r none⟩

/-- `n` steps, chosen by the scheduler. -/
inductive ExtRun {σ ρ ι : Type} (M : σ → TAct σ ρ) (X : ρ → LAct ρ) (R : Reader ι) (cap xcap : Nat) : Nat → ExtSt σ ρ ι → ExtSt σ ρ ι → Prop where
  | refl (st) : ExtRun M X R cap xcap 0 st st
  | tail {n a b c} : ExtRun M X R cap xcap n a b → ExtStep M X R cap xcap b c → ExtRun M X R cap xcap (n + 1) a c

/-! ## `tokenize` as a goroutine -/

/-- Where `tokenize` is. -/
inductive TkSt (ρ : Type) where
  /-- lex.go:157-159, with the tokens of this round still to be sent; at `none` it returns -/
  | out (ts : List Tok) (next : Option LexSt)
  /-- lex.go:192: sending the name of an external lexer -/
  | name (t : Tok) (st : LexSt) (la : Str) (e : ρ)
  /-- lex.go:194-199 -/
  | calling (st : LexSt) (la : Str) (e : ρ)

/-- lex.go:163-209: one round of the loop, with the rune read.  `exts` gives the start state of the external lexer of a name. -/
def tkRound {ρ : Type} (exts : Str → Option ρ) (st : LexSt) (c : Char) : TkSt ρ :=
  let st := if c == '\n' then { st with tokenLine := st.tokenLine + 1, nextTokenIsDirective := true } else st
  if c == '\r' then .out [] (some st)
  else if c == '\\' && !st.esc then .out [] (some { st with esc := true })
  else
    let la := if st.esc then ['\\', c] else [c]
    let st := { st with esc := false }
    match (if st.token.length > 0 && st.nextTokenIsDirective then exts st.token else none) with
    | some e => .name (st.emitTok st.tokenStartLine (st.lexState == .inQuote) none) st la e
    | none => .out (lexSwitch st la).1 (lexSwitch st la).2

/-- lex.go:199-209: back from the external lexer, with the line. -/
def tkBack {ρ : Type} (st : LexSt) (la : Str) (line : Int) : TkSt ρ :=
  let lastLexState := st.lexState
  let st := { st.reset with tokenLine := line }
  if lastLexState == .inQuote && la == st.quote then .out [] (some st)
  else .out (lexSwitch st la).1 (lexSwitch st la).2

/-- lex.go:157-338. -/
def tkAct {ρ : Type} (exts : Str → Option ρ) : TkSt ρ → TAct (TkSt ρ) ρ
  | .out (t :: ts) next => .send t (.out ts next)
  | .out [] none => .close
  | .out [] (some st) => .scan fun
    | none => .out (lexFinish st) none
    | some c => tkRound exts st c
  | .name t st la e => .send t (.calling st la e)
  | .calling st la e => .call e st.tokenLine (tkBack st la)

/-! ## The goroutine of the Lua lexer -/

/-- Where the goroutine of lua.go:60-173 is. -/
inductive LuaSt where
  /-- lua.go:70-89, with `arg` -/
  | arg (arg : Str)
  /-- lua.go:93-108 -/
  | start
  /-- lua.go:111-172 -/
  | body (depth : Int) (inQuotes : Bool) (quoteType tok : Str)
  /-- sending these tokens, to go on with the block (lua.go:77-78) or to return -/
  | out (ts : List Tok) (goOn : Bool)

/-- lua.go:116-171: one round of the loop that collects the block, at line `line`. -/
def luaRound (depth : Int) (inQuotes : Bool) (quoteType tok : Str) (c : Char) (line : Int) : LuaSt :=
  if c == '{' && !inQuotes then
    .body (depth + 1) inQuotes quoteType (if depth + 1 > 1 then tok ++ [c] else tok)
  else if c == '}' && !inQuotes then
    if depth - 1 < 0 then .out [{ value := [], line := 0, error := some (lexError c!"unexpected \"}\"" line) }] false
    else if depth - 1 == 0 then .out [{ value := tok, line := line, quoted := true }, { value := c!";", line := line }] false
    else .body (depth - 1) inQuotes quoteType (tok ++ [c])
  else if c == '"' || c == '\'' then
    if !inQuotes then .body depth true [c] (tok ++ [c])
    else if [c] == quoteType then .body depth false quoteType (tok ++ [c])
    else .body depth inQuotes quoteType (tok ++ [c])
  else
    if isSpace [c] && depth == 0 then .body depth inQuotes quoteType tok
    else if depth == 0 then .out [{ value := [c], line := line }] false
    else .body depth inQuotes quoteType (tok ++ [c])

/-- lua.go:97-107: one round of the loop that looks for the opening brace. -/
def luaStartRound (c : Char) (line : Int) : LuaSt :=
  if !isSpace [c] then
    if c != '{' then .out [{ value := [], line := 0, error := some (lexError c!"expected \"{\" to start lua block" line) }] false
    else .body 1 false [] []
  else .start

/-- lua.go:60-173. -/
def luaAct : LuaSt → LAct LuaSt
  | .arg a => .scan fun
    | none => fun _ => .out [] false
    | some c => fun line =>
      if isSpace [c] then if a != [] then .out [{ value := a, line := line }] true else .arg a
      else .arg (a ++ [c])
  | .start => .scan fun
    | none => fun _ => .out [] false
    | some c => fun line => luaStartRound c line
  | .body d q qt tok => .scan fun
    | none => fun _ => .out [] false
    | some c => fun line => luaRound d q qt tok c line
  | .out (t :: ts) g => .send t (.out ts g)
  | .out [] false => .stop
  | .out [] true => .scan fun
    | none => fun _ => .out [] false
    | some c => fun line => luaStartRound c line

/-- lua.go:47-68: the external lexers of `Lua`. -/
def luaStarts (name : Str) : Option LuaSt :=
  if luaDirectiveNames.contains name then some (if name == setByLuaBlock then .arg [] else .start) else none

end Verif
