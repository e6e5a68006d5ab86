import Verif.Model.ParseChan
import Verif.Model.ChanExt
/-!
# `Parse` with all its goroutines

The program of `Model/ParseChan`, where each lexer is the machine of `Model/ChanExt`: `tokenize` reads the file rune by rune, starts the goroutines of external lexers
(lex.go:194, lua.go:60), and forwards what they send.  `Parse` receives from the channel of the lexer of the current file.
-/
namespace Verif

/-- The receiving end of the channel of a lexer: nothing was received (`none`), or a token, or that the channel is closed. -/
def mailbox : Reader (Option (Option Tok)) where
  wants r := r.isNone
  step _ t := some t

/-- The goroutines for a file, with their channels and the scanner. -/
abbrev FileG (ρ : Type) := ExtSt (TkSt ρ) ρ (Option (Option Tok))

/-- lex.go:97-99. -/
def FileG.start {ρ : Type} (input : List Char) : FileG ρ := .init (.out [] (some {})) input none

/-- `Parse` and the goroutines of the files, the latest first. -/
structure XSys (ρ : Type) where
  main : Main
  lexers : List (FileG ρ)

/-- parse.go:149-159: the start of `Parse`. -/
def XSys.init (ρ : Type) (filename : Str) : XSys ρ := { main := .next (initPS filename) [], lexers := [] }

/-- A step of the program.  `exts` are the external lexers in the options, with the transitions `X`; `cap` and `xcap` are the capacities of the channels of the lexers and of
the external lexers.  Only the latest lexer is read. -/
inductive XLiveStep {ρ : Type} (X : ρ → LAct ρ) (exts : Str → Option ρ) (env : Env) (o : ParseOptions) (configDir : Str) (cap xcap : Nat) : XSys ρ → XSys ρ → Prop where
  /-- a goroutine of a file makes a step, and `Parse` receives nothing -/
  | lexer (m pre g g' post) : ExtStep (tkAct exts) X mailbox cap xcap g g' → g'.rd = none →
      XLiveStep X exts env o configDir cap xcap ⟨m, pre ++ g :: post⟩ ⟨m, pre ++ g' :: post⟩
  | openFail (ps configs incl rest e gs) : ps.includes = incl :: rest → env.openFile ps.opens incl.path = .error e →
      XLiveStep X exts env o configDir cap xcap ⟨.next ps configs, gs⟩ ⟨.returned (.err e), gs⟩
  | openFile (ps configs incl rest data gs) : ps.includes = incl :: rest → env.openFile ps.opens incl.path = .ok data →
      XLiveStep X exts env o configDir cap xcap ⟨.next ps configs, gs⟩
        ⟨.file incl.path configs (.loop incl.ctx [] { ps with includes := rest, opens := ps.opens + 1, cfgStatus := c!"ok", cfgErrors := [] } []),
          .start data.runes :: gs⟩
  | finish (ps configs gs) : ps.includes = [] → XLiveStep X exts env o configDir cap xcap ⟨.next ps configs, gs⟩ ⟨.returned (finish env o ps configs), gs⟩
  /-- `Parse` receives `t` -/
  | receive (path configs st g t g' gs) : (∀ r ps, st ≠ .done r ps) → ExtStep (tkAct exts) X mailbox cap xcap g g' → g'.rd = some t →
      XLiveStep X exts env o configDir cap xcap ⟨.file path configs st, g :: gs⟩ ⟨.file path configs (receive env o configDir path st t), { g' with rd := none } :: gs⟩
  | fileDone (path configs r ps gs) :
      XLiveStep X exts env o configDir cap xcap ⟨.file path configs (.done r ps), gs⟩ ⟨afterFile o path configs ps r, gs⟩

/-- The same, and: when `Parse` returns it closes the files (parse.go:170), so the scanners can then deliver anything. -/
inductive XSysStep {ρ : Type} (X : ρ → LAct ρ) (exts : Str → Option ρ) (env : Env) (o : ParseOptions) (configDir : Str) (cap xcap : Nat) : XSys ρ → XSys ρ → Prop where
  | live {s s'} : XLiveStep X exts env o configDir cap xcap s s' → XSysStep X exts env o configDir cap xcap s s'
  | cut (r pre g post input) :
      XSysStep X exts env o configDir cap xcap ⟨.returned r, pre ++ g :: post⟩ ⟨.returned r, pre ++ { g with input := input } :: post⟩

/-- Any number of steps, chosen by the scheduler. -/
inductive XSysRun {ρ : Type} (X : ρ → LAct ρ) (exts : Str → Option ρ) (env : Env) (o : ParseOptions) (configDir : Str) (cap xcap : Nat) : XSys ρ → XSys ρ → Prop where
  | refl (s) : XSysRun X exts env o configDir cap xcap s s
  | tail {a b c} : XSysRun X exts env o configDir cap xcap a b → XSysStep X exts env o configDir cap xcap b c → XSysRun X exts env o configDir cap xcap a c

/-- Any number of steps without `cut`. -/
inductive XLiveRun {ρ : Type} (X : ρ → LAct ρ) (exts : Str → Option ρ) (env : Env) (o : ParseOptions) (configDir : Str) (cap xcap : Nat) : XSys ρ → XSys ρ → Prop where
  | refl (s) : XLiveRun X exts env o configDir cap xcap s s
  | tail {a b c} : XLiveRun X exts env o configDir cap xcap a b → XLiveStep X exts env o configDir cap xcap b c → XLiveRun X exts env o configDir cap xcap a c

end Verif
