import Verif.Model.Lex
/-!
# The token channel between the lexer goroutine and its reader

lex.go:97-99 creates a channel of capacity `tokChanCap` (any value ≥ 0, lex.go:40-45) and starts `tokenize`, which
sends its tokens one by one (lex.go:152, 205) and then closes the channel (lex.go:274, 288, 337).  The reader
(parse.go:217, 275, 291, or any `range` loop) receives.  The scheduler picks any enabled step.
-/
namespace Verif

/-- A deterministic reader of the channel, as a state machine: `wants s` says whether the reader in state `s` is (or will be)
receiving; `step` is its state after receiving a token, or `none` when the channel is closed and drained (the
`ok` result of a Go receive).  Examples: `drain` below, and the parser, parse.go:217, 275, 291. -/
structure Reader (σ : Type) where
  wants : σ → Bool
  step : σ → Option Tok → σ

/-- State of goroutine, channel and reader. `todo`: tokens not yet sent. -/
structure ChanSt (σ : Type) where
  todo : List Tok
  buf : List Tok
  closed : Bool
  rd : σ

/-- The state when `LexWithOptions` returns (lex.go:97-99). -/
def ChanSt.init {σ : Type} (toks : List Tok) (s : σ) : ChanSt σ :=
  { todo := toks, buf := [], closed := false, rd := s }

/-- One step of the two goroutines on a channel of capacity `cap` (Go memory model of channels):
a send completes if there is room in the buffer, or directly into a waiting receiver when the buffer is empty;
a receive takes the oldest element, or reports closed once the channel is closed and empty. -/
inductive ChanStep {σ : Type} (R : Reader σ) (cap : Nat) : ChanSt σ → ChanSt σ → Prop where
  | send (t todo buf r) (h : buf.length < cap) :
      ChanStep R cap ⟨t :: todo, buf, false, r⟩ ⟨todo, buf ++ [t], false, r⟩
  | handoff (t todo r) (h : R.wants r = true) :
      ChanStep R cap ⟨t :: todo, [], false, r⟩ ⟨todo, [], false, R.step r (some t)⟩
  | close (buf r) :
      ChanStep R cap ⟨[], buf, false, r⟩ ⟨[], buf, true, r⟩
  | receive (t todo buf c r) (h : R.wants r = true) :
      ChanStep R cap ⟨todo, t :: buf, c, r⟩ ⟨todo, buf, c, R.step r (some t)⟩
  | receiveClosed (todo r) (h : R.wants r = true) :
      ChanStep R cap ⟨todo, [], true, r⟩ ⟨todo, [], true, R.step r none⟩

/-- `n` steps, chosen by the scheduler. -/
inductive ChanRun {σ : Type} (R : Reader σ) (cap : Nat) : Nat → ChanSt σ → ChanSt σ → Prop where
  | refl (st) : ChanRun R cap 0 st st
  | tail {n a b c} : ChanRun R cap n a b → ChanStep R cap b c → ChanRun R cap (n + 1) a c

/-- The reader that drains the channel (a `for tok := range ch` loop, as in parse.go:217 and lex.go:203-205) and keeps what it
received; the flag says that it saw the channel closed. -/
def drain : Reader (List Tok × Bool) where
  wants s := !s.2
  step s
    | none => (s.1, true)
    | some t => (s.1 ++ [t], false)

end Verif
