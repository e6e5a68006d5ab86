import Verif.Model.ParseExt
import Verif.Props.ChanExt
import Verif.Props.ParseChan
/-!
# The program with the goroutines of external lexers is the program of `Model/ParseChan` with more steps in between
-/
namespace Verif
open Spec

variable {ρ : Type} {X : ρ → LAct ρ} {exts : Str → Option ρ}

/-- The goroutines of a file, what they will still send, and a bound for the steps that do not show. -/
structure Ahead (ρ : Type) where
  g : FileG ρ
  toks : List Tok
  steps : Nat

/-- The bookkeeping is right. -/
structure Ahead.Ok (X : ρ → LAct ρ) (exts : Str → Option ρ) (z : Ahead ρ) : Prop where
  fut : Fut (tkAct exts) X z.g z.toks z.steps
  idle : z.g.rd = none
  inv : ExtInv z.g

/-- The lexer of `Model/ParseChan`. -/
def Ahead.abs (z : Ahead ρ) : LexerG := ⟨z.toks, none, z.g.buf, z.g.main.isClosed⟩

theorem fut_rd {σ ι : Type} {M : σ → TAct σ ρ} {g : ExtSt σ ρ ι} {ts : List Tok} {n : Nat} (h : Fut M X g ts n) (r : ι) : Fut M X { g with rd := r } ts n := by
  cases h with
  | run h => exact .run h
  | drain hx h => exact .drain hx h
  | fwd hx h => exact .fwd hx h
  | closed => exact .closed

/-- One or two steps of a lexer. -/
inductive LexerSteps (cap : Nat) : LexerG → LexerG → Prop where
  | one {a b} : LexerStep cap a b → LexerSteps cap a b
  | two {a b c} : LexerStep cap a b → LexerStep cap b c → LexerSteps cap a c

/-- A step of the goroutines of a file at which nothing is received. -/
theorem own_sim {cap xcap : Nat} {z : Ahead ρ} (hz : z.Ok X exts) {g' : FileG ρ} (hs : ExtStep (tkAct exts) X mailbox cap xcap z.g g') (hr : g'.rd = none) :
    ∃ z' : Ahead ρ, z'.g = g' ∧ z'.Ok X exts ∧ ((z'.abs = z.abs ∧ z'.steps < z.steps) ∨ LexerSteps cap z.abs z'.abs) := by
  have hinv := extInv_step hs hz.inv
  rcases extStep_sim hs hz.fut with ⟨n', hf, hl, he⟩ | ⟨ts', n', hf, hl, hc⟩
  · refine ⟨⟨g', z.toks, n'⟩, rfl, ⟨hf, hr, hinv⟩, Or.inl ⟨?_, hl⟩⟩
    simp only [ExtSt.abs, ChanSt.mk.injEq] at he
    simp [Ahead.abs, he.2.1, he.2.2.1]
  · refine ⟨⟨g', ts', n'⟩, rfl, ⟨hf, hr, hinv⟩, Or.inr ?_⟩
    have hi := hz.idle
    simp only [ExtSt.abs] at hc
    simp only [Ahead.abs]
    rw [hi, hr] at hc
    generalize hb : z.g.buf = b at hc
    generalize hb' : g'.buf = b' at hc
    generalize hd : z.g.main.isClosed = d at hc
    generalize hd' : g'.main.isClosed = d' at hc
    generalize hts : z.toks = ts at hc
    generalize hA : (⟨ts, b, d, none⟩ : ChanSt (Option (Option Tok))) = A at hc
    generalize hB : (⟨ts', b', d', none⟩ : ChanSt (Option (Option Tok))) = B at hc
    cases hc with
    | send t todo buf r h => cases hA; cases hB; exact .two (.compute _ _ _) (.send _ _ _ h)
    | handoff t todo r h => injection hB with _ _ _ e; cases e
    | close buf r => cases hA; cases hB; exact .one (.close _)
    | receive t todo buf c r h => injection hB with _ _ _ e; cases e
    | receiveClosed todo r h => injection hB with _ _ _ e; cases e

/-- A step at which `Parse` receives. -/
theorem receive_sim {cap xcap : Nat} {z : Ahead ρ} (hz : z.Ok X exts) {g' : FileG ρ} {t : Option Tok} (hs : ExtStep (tkAct exts) X mailbox cap xcap z.g g')
    (hr : g'.rd = some t) :
    ∃ z' : Ahead ρ, z'.g = { g' with rd := none } ∧ z'.Ok X exts ∧
      (Receives z.abs t z'.abs ∨ ∃ a, LexerStep cap z.abs a ∧ Receives a t z'.abs) := by
  have hinv := extInv_step hs hz.inv
  have hi := hz.idle
  rcases extStep_sim hs hz.fut with ⟨n', hf, hl, he⟩ | ⟨ts', n', hf, hl, hc⟩
  · simp only [ExtSt.abs, ChanSt.mk.injEq] at he
    rw [hr, hi] at he
    exact absurd he.2.2.2 (by simp)
  · refine ⟨⟨{ g' with rd := none }, ts', n'⟩, rfl, ⟨fut_rd hf _, rfl, hinv⟩, ?_⟩
    simp only [ExtSt.abs] at hc
    simp only [Ahead.abs]
    rw [hi, hr] at hc
    generalize hb : z.g.buf = b at hc
    generalize hb' : g'.buf = b' at hc
    generalize hd : z.g.main.isClosed = d at hc
    generalize hd' : g'.main.isClosed = d' at hc
    generalize hts : z.toks = ts at hc
    generalize hA : (⟨ts, b, d, none⟩ : ChanSt (Option (Option Tok))) = A at hc
    generalize hB : (⟨ts', b', d', some t⟩ : ChanSt (Option (Option Tok))) = B at hc
    cases hc with
    | send t todo buf r h => cases hA; cases hB
    | handoff t todo r h => cases hA; cases hB; exact Or.inr ⟨_, .compute _ _ _, .handoff _ _⟩
    | close buf r => cases hA; cases hB
    | receive t todo buf c r h => cases hA; cases hB; exact Or.inl (.buffered _ _ _ _ _)
    | receiveClosed todo r h => cases hA; cases hB; exact Or.inl (.closed _ _)

/-- The program without the goroutines of external lexers. -/
def absSys (m : Main) (zs : List (Ahead ρ)) : Sys := ⟨m, zs.map Ahead.abs⟩

/-- The steps ahead that do not show. -/
def hidden (zs : List (Ahead ρ)) : Nat := (zs.map Ahead.steps).sum

variable {env : Env} {o : ParseOptions} {configDir : Str} {cap xcap : Nat}

/-- Every step is one that does not show, and there are finitely many of these until the next that does, or some steps of the program without the goroutines of external
lexers. -/
theorem xstep_sim (hi : Implements X exts (extLexersOf o.lexers)) {s s' : XSys ρ} (hs : XLiveStep X exts env o configDir cap xcap s s') {zs : List (Ahead ρ)}
    (hz : ∀ z ∈ zs, z.Ok X exts) (hl : s.lexers = zs.map Ahead.g) :
    ∃ zs', (∀ z ∈ zs', z.Ok X exts) ∧ s'.lexers = zs'.map Ahead.g ∧
      ((s'.main = s.main ∧ zs'.map Ahead.abs = zs.map Ahead.abs ∧ hidden zs' < hidden zs) ∨
       ∃ k, 1 ≤ k ∧ LiveRun env o configDir cap k (absSys s.main zs) (absSys s'.main zs')) := by
  cases hs with
  | lexer m pre g g' post h hr =>
    simp only at hl
    obtain ⟨zpre, zrest, rfl, rfl, h2⟩ := List.map_eq_append_iff.mp hl.symm
    obtain ⟨z, zpost, rfl, rfl, rfl⟩ := List.map_eq_cons_iff.mp h2
    obtain ⟨z', e1, e2, e3⟩ := own_sim (hz z (by simp)) h hr
    refine ⟨zpre ++ z' :: zpost, ?_, by simp [e1], ?_⟩
    · intro y hy
      rcases List.mem_append.mp hy with hy | hy
      · exact hz y (by simp [hy])
      · rcases List.mem_cons.mp hy with rfl | hy
        · exact e2
        · exact hz y (by simp [hy])
    · rcases e3 with ⟨e3, e4⟩ | e3
      · refine Or.inl ⟨rfl, by simp [e3], ?_⟩
        simp [hidden]; omega
      · refine Or.inr ?_
        simp only [absSys, List.map_append, List.map_cons]
        cases e3 with
        | one e => exact ⟨1, Nat.le_refl _, .tail (.refl _) (.lexer _ _ _ _ _ e)⟩
        | two e e' => exact ⟨2, by omega, .tail (.tail (.refl _) (.lexer _ _ _ _ _ e)) (.lexer _ _ _ _ _ e')⟩
  | openFail ps configs incl rest e gs h1 h2 => exact ⟨zs, hz, hl, Or.inr ⟨1, Nat.le_refl _, .tail (.refl _) (.openFail _ _ _ _ _ _ h1 h2)⟩⟩
  | openFile ps configs incl rest data gs h1 h2 =>
    obtain ⟨n, hn⟩ := lexWith_seq hi data.runes
    simp only at hl
    refine ⟨⟨.start data.runes, lexWith (extLexersOf o.lexers) data.runes, n⟩ :: zs, ?_, by simp [hl], Or.inr ⟨1, Nat.le_refl _, .tail (.refl _) (.openFile _ _ _ _ _ _ h1 h2)⟩⟩
    intro y hy
    rcases List.mem_cons.mp hy with rfl | hy
    · exact ⟨fut_init hn _, rfl, rfl⟩
    · exact hz y hy
  | finish ps configs gs h1 => exact ⟨zs, hz, hl, Or.inr ⟨1, Nat.le_refl _, .tail (.refl _) (.finish _ _ _ h1)⟩⟩
  | receive path configs st g t g' gs hd h hr =>
    simp only at hl
    obtain ⟨z, zpost, rfl, rfl, rfl⟩ := List.map_eq_cons_iff.mp hl.symm
    obtain ⟨z', e1, e2, e3⟩ := receive_sim (hz z (by simp)) h hr
    refine ⟨z' :: zpost, ?_, by simp [e1], Or.inr ?_⟩
    · intro y hy
      rcases List.mem_cons.mp hy with rfl | hy
      · exact e2
      · exact hz y (by simp [hy])
    · rcases e3 with e3 | ⟨a, e3, e4⟩
      · exact ⟨1, Nat.le_refl _, .tail (.refl _) (.receive _ _ _ _ _ _ _ hd e3)⟩
      · exact ⟨2, by omega, .tail (.tail (.refl _) (.lexer _ [] _ _ _ e3)) (.receive _ _ _ _ _ _ _ hd e4)⟩
  | fileDone path configs r ps gs => exact ⟨zs, hz, hl, Or.inr ⟨1, Nat.le_refl _, .tail (.refl _) (.fileDone _ _ _ _ _)⟩⟩

/-- The state is one of the program without the goroutines of external lexers, after `n` of its steps. -/
structure Appears (X : ρ → LAct ρ) (exts : Str → Option ρ) (env : Env) (o : ParseOptions) (cap : Nat) (filename : Str) (s : XSys ρ) (zs : List (Ahead ρ)) (n : Nat) : Prop where
  ok : ∀ z ∈ zs, z.Ok X exts
  lexers : s.lexers = zs.map Ahead.g
  run : LiveRun env o (env.dir filename) cap n (.init filename) (absSys s.main zs)

theorem Appears.init (filename : Str) : Appears X exts env o cap filename (.init ρ filename) [] 0 := ⟨by simp, rfl, .refl _⟩

theorem Appears.step {filename : Str} (hi : Implements X exts (extLexersOf o.lexers)) {s s' : XSys ρ} {zs : List (Ahead ρ)} {n : Nat}
    (h : Appears X exts env o cap filename s zs n) (hs : XLiveStep X exts env o (env.dir filename) cap xcap s s') :
    ∃ zs' n', Appears X exts env o cap filename s' zs' n' ∧ (n < n' ∨ (n' = n ∧ hidden zs' < hidden zs)) := by
  obtain ⟨zs', h1, h2, ⟨h3, h4, h5⟩ | ⟨k, h3, h4⟩⟩ := xstep_sim hi hs h.ok h.lexers
  · refine ⟨zs', n, ⟨h1, h2, ?_⟩, Or.inr ⟨rfl, h5⟩⟩
    have := h.run
    simp only [absSys] at this ⊢
    rw [h3, h4]
    exact this
  · exact ⟨zs', n + k, ⟨h1, h2, h.run.trans h4⟩, Or.inl (by omega)⟩

theorem XLiveRun.appears {filename : Str} (hi : Implements X exts (extLexersOf o.lexers)) {s : XSys ρ}
    (h : XLiveRun X exts env o (env.dir filename) cap xcap (.init ρ filename) s) : ∃ zs n, Appears X exts env o cap filename s zs n := by
  induction h with
  | refl => exact ⟨[], 0, .init filename⟩
  | tail _ hs ih =>
    obtain ⟨zs, n, h⟩ := ih
    obtain ⟨zs', n', h', -⟩ := h.step hi hs
    exact ⟨zs', n', h'⟩

/-- A run is one without `cut` up to the return of `Parse`; after that the result stays. -/
theorem XSysRun.cases {s0 s : XSys ρ} (h : XSysRun X exts env o configDir cap xcap s0 s) :
    XLiveRun X exts env o configDir cap xcap s0 s ∨
    ∃ s1 q, XLiveRun X exts env o configDir cap xcap s0 s1 ∧ s1.main = .returned q ∧ s.main = .returned q := by
  induction h with
  | refl => exact Or.inl (.refl _)
  | tail _ hs ih =>
    rcases ih with ih | ⟨s1, q, h1, h2, h3⟩
    · cases hs with
      | live hs => exact Or.inl (.tail ih hs)
      | cut r pre g post input => exact Or.inr ⟨_, r, ih, rfl, rfl⟩
    · refine Or.inr ⟨s1, q, h1, h2, ?_⟩
      cases hs with
      | cut r pre g post input => exact h3
      | live hs =>
        cases hs with
        | lexer => exact h3
        | openFail => cases h3
        | openFile => cases h3
        | finish => cases h3
        | receive => cases h3
        | fileDone => cases h3

theorem XLiveRun.trans {a b c : XSys ρ} (h1 : XLiveRun X exts env o configDir cap xcap a b) (h2 : XLiveRun X exts env o configDir cap xcap b c) :
    XLiveRun X exts env o configDir cap xcap a c := by
  induction h2 with
  | refl => exact h1
  | tail _ hs ih => exact .tail ih hs

theorem XLiveRun.sys {a b : XSys ρ} (h : XLiveRun X exts env o configDir cap xcap a b) : XSysRun X exts env o configDir cap xcap a b := by
  induction h with
  | refl => exact .refl _
  | tail _ hs ih => exact .tail ih (.live hs)

end Verif
