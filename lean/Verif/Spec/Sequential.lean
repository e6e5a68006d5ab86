import Verif.Model.ChanExt
/-!
# Goroutines run one after the other

What the goroutines of `Verif/Model/ChanExt.lean` would send if there was no concurrency: an external lexer runs to its end when it is called.
-/
namespace Verif.Spec

/-- The external lexer in state `r` with the runes `cs` left at line `l` sends `ts` and leaves `cs'` and `l'`.  The last argument bounds the number of its steps. -/
inductive XSeq {ρ : Type} (X : ρ → LAct ρ) : ρ → List Char → Int → List Tok → List Char → Int → Nat → Prop where
  | scan {r k c cs l ts cs' l' n} (h : X r = .scan k) (hr : XSeq X (k (some c) (scanLine l c)) cs (scanLine l c) ts cs' l' n) :
      XSeq X r (c :: cs) l ts cs' l' (n + 1)
  | eof {r k l ts cs' l' n} (h : X r = .scan k) (hr : XSeq X (k none l) [] l ts cs' l' n) : XSeq X r [] l ts cs' l' (n + 1)
  | send {r t k cs l ts cs' l' n} (h : X r = .send t k) (hr : XSeq X k cs l ts cs' l' n) : XSeq X r cs l (t :: ts) cs' l' (n + 2)
  | stop {r cs l} (h : X r = .stop) : XSeq X r cs l [] cs l 1

/-- `tokenize` in state `s` with the runes `cs` left sends `ts` on the token channel; each external lexer runs to its end when it is called. -/
inductive MSeq {σ ρ : Type} (M : σ → TAct σ ρ) (X : ρ → LAct ρ) : σ → List Char → List Tok → Nat → Prop where
  | scan {s k c cs ts n} (h : M s = .scan k) (hr : MSeq M X (k (some c)) cs ts n) : MSeq M X s (c :: cs) ts (n + 1)
  | eof {s k ts n} (h : M s = .scan k) (hr : MSeq M X (k none) [] ts n) : MSeq M X s [] ts (n + 1)
  | send {s t k cs ts n} (h : M s = .send t k) (hr : MSeq M X k cs ts n) : MSeq M X s cs (t :: ts) n
  | call {s e ln k cs ts1 cs' l' n1 ts2 n2} (h : M s = .call e ln k) (hx : XSeq X e cs ln ts1 cs' l' n1) (hr : MSeq M X (k l') cs' ts2 n2) :
      MSeq M X s cs (ts1 ++ ts2) (n1 + n2 + 2)
  | close {s cs} (h : M s = .close) : MSeq M X s cs [] 0

/-- The goroutines `exts` with the transitions `X` do what the functions `ext` of the lexer model say: same names, same tokens, same number of runes read. -/
def Implements {ρ : Type} (X : ρ → LAct ρ) (exts : Str → Option ρ) (ext : ExtLexers) : Prop :=
  ∀ name, (exts name = none ∧ ext name = none) ∨
    ∃ e f, exts name = some e ∧ ext name = some f ∧
      ∀ cs l, ∃ n, XSeq X e cs l (f cs l).1 (cs.drop (f cs l).2) (l + (cs.take (f cs l).2).count '\n') n

end Verif.Spec
