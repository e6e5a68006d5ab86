import Verif.Proofs.ChanExt
import Verif.Props.Chan
import Verif.Props.Lua
/-!
# C66: external lexers run in goroutines of their own
-/
namespace Verif
open Spec

variable {ρ ι : Type} {X : ρ → LAct ρ} {exts : Str → Option ρ} {ext : ExtLexers}

theorem lexWith_seq (hi : Implements X exts ext) (input : List Char) :
    ∃ n, MSeq (tkAct exts) X (.out [] (some {})) input (lexWith ext input) n :=
  tokenize_seq hi _ input (Nat.le_refl _) {}

/-- The state when `LexWithOptions` returns. -/
abbrev lexInit (input : List Char) (r : ι) : ExtSt (TkSt ρ) ρ ι := .init (.out [] (some {})) input r

/-- C66.  Whatever the scheduler does and whatever the capacities of the two channels, a reader is in the state after some number of receives from the tokens of the lexer
model, in order, and it received only while it wanted to. -/
theorem C66_order (hi : Implements X exts ext) (R : Reader ι) (cap xcap : Nat) (input : List Char) (r0 : ι) {m : Nat} {st : ExtSt (TkSt ρ) ρ ι}
    (h : ExtRun (tkAct exts) X R cap xcap m (lexInit input r0) st) :
    ∃ k, st.rd = feed R r0 (lexWith ext input) k ∧ ∀ i < k, R.wants (feed R r0 (lexWith ext input) i) = true := by
  obtain ⟨n, hn⟩ := lexWith_seq hi input
  obtain ⟨ts, _, j, _, hr, _⟩ := extRun_sim h (fut_init hn r0)
  exact C01_receives_in_order R cap _ r0 hr

/-- C66.  A reader that drains the channel has, when it stops, received exactly the tokens of the lexer model, and the channel is empty. -/
theorem C66_drain (hi : Implements X exts ext) (cap xcap : Nat) (input : List Char) {m : Nat} {st : ExtSt (TkSt ρ) ρ (List Tok × Bool)}
    (h : ExtRun (tkAct exts) X drain cap xcap m (lexInit input ([], false)) st) (hd : drain.wants st.rd = false) :
    st.rd.1 = lexWith ext input ∧ st.buf = [] := by
  obtain ⟨n, hn⟩ := lexWith_seq hi input
  obtain ⟨ts, _, j, _, hr, _⟩ := extRun_sim h (fut_init hn _)
  have := C01_drain cap _ hr hd
  exact ⟨this.1, this.2.2⟩

/-- C66.  While the reader wants to receive, some step is possible - also with external lexers that never close their channel. -/
theorem C66_no_deadlock (R : Reader ι) (cap xcap : Nat) (input : List Char) (r0 : ι) {m : Nat} {st : ExtSt (TkSt ρ) ρ ι}
    (h : ExtRun (tkAct exts) X R cap xcap m (lexInit input r0) st) (hw : R.wants st.rd = true) :
    ∃ st', ExtStep (tkAct exts) X R cap xcap st st' := by
  have hinv : ExtInv st := extInv_run h rfl
  obtain ⟨mm, x, xb, cs, l, b, r⟩ := st
  cases b with
  | cons t b => exact ⟨_, .recv _ _ _ _ _ _ _ _ hw⟩
  | nil =>
    cases hc : mm.isClosed with
    | true =>
      cases mm with
      | closed => exact ⟨_, .recvClosed _ _ _ _ _ hw⟩
      | run s => cases hc
      | drain k => cases hc
      | fwd t k => cases hc
    | false => exact ext_progress hinv hc (.inr (.inl ⟨rfl, hw⟩))

/-- C66.  With a reader that stops when it sees the channel closed there is a bound for the number of steps that does not depend on schedule and capacities. -/
theorem C66_terminates (hi : Implements X exts ext) (R : Reader ι) (hstop : ∀ s, R.wants (R.step s none) = false) (input : List Char) (r0 : ι) :
    ∃ N, ∀ (cap xcap m : Nat) (st : ExtSt (TkSt ρ) ρ ι), ExtRun (tkAct exts) X R cap xcap m (lexInit input r0) st → m ≤ N := by
  obtain ⟨n, hn⟩ := lexWith_seq hi input
  refine ⟨n + (2 * (lexWith ext input).length + 2), fun cap xcap m st h => ?_⟩
  obtain ⟨ts, n', j, _, hr, hl⟩ := extRun_sim h (fut_init hn r0)
  have := C02_terminates R hstop cap _ r0 hr
  omega

/-- C66.  If a run with the draining reader cannot go on, the reader has all tokens, `tokenize` has returned and no external lexer is left. -/
theorem C66_drain_completes (hi : Implements X exts ext) (cap xcap : Nat) (input : List Char) {m : Nat} {st : ExtSt (TkSt ρ) ρ (List Tok × Bool)}
    (h : ExtRun (tkAct exts) X drain cap xcap m (lexInit input ([], false)) st) (hmax : ∀ st', ¬ ExtStep (tkAct exts) X drain cap xcap st st') :
    st.rd.1 = lexWith ext input ∧ st.main = .closed ∧ st.ext = .none := by
  have hw : drain.wants st.rd = false := by
    cases hw : drain.wants st.rd with
    | false => rfl
    | true => obtain ⟨st', h'⟩ := C66_no_deadlock drain cap xcap input _ h hw; exact absurd h' (hmax st')
  have hinv : ExtInv st := extInv_run h rfl
  obtain ⟨n, hn⟩ := lexWith_seq hi input
  obtain ⟨ts, n', j, hf, hr, _⟩ := extRun_sim h (fut_init hn _)
  have hd := C01_drain cap _ hr hw
  have hts : ts = [] := hd.2.1
  subst hts
  have hcl : st.main.isClosed = true := by
    cases hc : st.main.isClosed with
    | true => rfl
    | false => obtain ⟨st', h'⟩ := ext_progress (R := drain) (cap := cap) (xcap := xcap) hinv hc (.inr (.inr (.inr ⟨n', hf⟩))); exact absurd h' (hmax st')
  refine ⟨hd.1, ?_, ?_⟩
  · cases hm : st.main with
    | closed => rfl
    | _ => rw [hm] at hcl; cases hcl
  · cases hm : st.main with
    | closed => simp only [ExtInv, hm] at hinv; exact hinv
    | _ => rw [hm] at hcl; cases hcl

/-- `tokenize` is about to use the scanner, or to read the line of the `SubScanner`. -/
def MainUses (M : TkSt ρ → TAct (TkSt ρ) ρ) (st : ExtSt (TkSt ρ) ρ ι) : Prop :=
  (∃ s k, st.main = .run s ∧ M s = .scan k) ∨ (∃ k, st.main = .drain k ∧ st.ext = .closed)

/-- The goroutine of an external lexer is about to use the scanner. -/
def ExtUses (X : ρ → LAct ρ) (st : ExtSt (TkSt ρ) ρ ι) : Prop := ∃ e k, st.ext = .live e ∧ X e = .scan k

/-- C66.  `tokenize` and an external lexer never use the scanner at the same time. -/
theorem C66_exclusive (R : Reader ι) (cap xcap : Nat) (input : List Char) (r0 : ι) {m : Nat} {st : ExtSt (TkSt ρ) ρ ι}
    (h : ExtRun (tkAct exts) X R cap xcap m (lexInit input r0) st) : ¬ (MainUses (tkAct exts) st ∧ ExtUses X st) := by
  have hinv : ExtInv st := extInv_run h rfl
  rintro ⟨⟨s, k, hm, _⟩ | ⟨k, hm, hx⟩, e, k', he, _⟩
  · simp only [ExtInv, hm, he] at hinv; cases hinv
  · rw [hx] at he; cases he

/-- If the reader has stopped and the tokens fit into the channel, `tokenize` can return. -/
theorem ext_can_close {R : Reader ι} {cap xcap : Nat} {M : TkSt ρ → TAct (TkSt ρ) ρ} : ∀ (b : Nat) (st : ExtSt (TkSt ρ) ρ ι) (ts : List Tok) (n : Nat), Fut M X st ts n → ExtInv st →
    R.wants st.rd = false → st.buf.length + ts.length ≤ cap → n + 2 * ts.length ≤ b → ∃ m st', ExtRun M X R cap xcap m st st' ∧ st'.main = .closed := by
  intro b
  induction b using Nat.strongRecOn with
  | _ b ih =>
    intro st ts n hf hi hw hfit hb
    cases hc : st.main.isClosed with
    | true =>
      refine ⟨0, st, .refl _, ?_⟩
      cases hm : st.main with
      | closed => rfl
      | _ => rw [hm] at hc; cases hc
    | false =>
      have hroom : st.buf.length < cap ∨ (st.buf = [] ∧ R.wants st.rd = true) ∨ Fut M X st [] 0 ∨ ∃ n, Fut M X st [] n := by
        cases ts with
        | nil => exact .inr (.inr (.inr ⟨n, hf⟩))
        | cons t ts => simp only [List.length_cons] at hfit; exact .inl (by omega)
      obtain ⟨st', hs⟩ := ext_progress (R := R) (cap := cap) (xcap := xcap) hi hc hroom
      have pre : ∀ {m a}, ExtRun M X R cap xcap m st' a → ExtRun M X R cap xcap (m + 1) st a := by
        intro m a hr
        induction hr with
        | refl => exact .tail (.refl _) hs
        | tail _ h2 ih => exact .tail (ih hs) h2
      have go : ∀ ts' n', Fut M X st' ts' n' → st'.rd = st.rd → st'.buf.length + ts'.length ≤ cap → n' + 2 * ts'.length < b →
          ∃ m a, ExtRun M X R cap xcap m st a ∧ a.main = .closed := by
        intro ts' n' hf' e1 e2 e3
        obtain ⟨m, a, hr, ha⟩ := ih _ e3 st' ts' n' hf' (extInv_step hs hi) (by rw [e1]; exact hw) e2 (Nat.le_refl _)
        exact ⟨_, a, pre hr, ha⟩
      rcases extStep_sim hs hf with ⟨n', f2, l2, e⟩ | ⟨ts', n', f2, l2, c2⟩
      · have e1 : st'.buf = st.buf := congrArg ChanSt.buf e
        have e2 : st'.rd = st.rd := congrArg ChanSt.rd e
        exact go ts n' f2 e2 (by rw [e1]; exact hfit) (by omega)
      · simp only [ExtSt.abs] at c2
        generalize hA : (⟨ts, st.buf, st.main.isClosed, st.rd⟩ : ChanSt ι) = A at c2
        generalize hB : (⟨ts', st'.buf, st'.main.isClosed, st'.rd⟩ : ChanSt ι) = B at c2
        cases c2 with
        | send t todo buf r hlt =>
          injection hA with a1 a2 a3 a4
          injection hB with b1 b2 b3 b4
          refine go ts' n' f2 (by rw [a4, b4]) ?_ ?_
          · rw [b2, b1]; rw [a1, a2] at hfit; simp only [List.length_append, List.length_cons, List.length_nil] at hfit ⊢; omega
          · rw [b1]; rw [a1] at hb; simp only [List.length_cons] at hb; omega
        | handoff t todo r hwr => injection hA with a1 a2 a3 a4; rw [a4, hwr] at hw; cases hw
        | close buf r =>
          injection hB with b1 b2 b3 b4
          refine ⟨1, st', .tail (.refl _) hs, ?_⟩
          cases hm : st'.main with
          | closed => rfl
          | _ => rw [hm] at b3; cases b3
        | receive t todo buf c r hwr => injection hA with a1 a2 a3 a4; rw [a4, hwr] at hw; cases hw
        | receiveClosed todo r hwr => injection hA with a1 a2 a3 a4; rw [a4, hwr] at hw; cases hw

/-- C66.  If the reader has stopped after `k` tokens, `tokenize` (and with it every external lexer) can still return exactly if the other tokens fit into the channel. -/
theorem C66_leak_iff (hi : Implements X exts ext) (R : Reader ι) (cap xcap : Nat) (input : List Char) (r0 : ι) {m : Nat} {st : ExtSt (TkSt ρ) ρ ι}
    (h : ExtRun (tkAct exts) X R cap xcap m (lexInit input r0) st) (hw : R.wants st.rd = false) :
    (∃ m' st', ExtRun (tkAct exts) X R cap xcap m' st st' ∧ st'.main = .closed) ↔
      ∃ k, (∀ i < k, R.wants (feed R r0 (lexWith ext input) i) = true) ∧ st.rd = feed R r0 (lexWith ext input) k ∧ (lexWith ext input).length ≤ k + cap := by
  obtain ⟨n, hn⟩ := lexWith_seq hi input
  obtain ⟨ts, n', j, hf, hr, _⟩ := extRun_sim h (fut_init hn r0)
  have hinv : ExtInv st := extInv_run h rfl
  have hci := chanInv_run hr (chanInv_init (lexWith ext input) r0)
  obtain ⟨⟨k, h1, h2, h3⟩, _⟩ := hci
  have hk : ∀ k', (∀ i < k', R.wants (feed R r0 (lexWith ext input) i) = true) → st.rd = feed R r0 (lexWith ext input) k' → k' = k := by
    intro k' hk' e
    rcases Nat.lt_trichotomy k' k with hh | hh | hh
    · have := h3 k' hh; rw [← e, hw] at this; cases this
    · exact hh
    · have := hk' k hh; rw [← h1] at this; rw [show (st.abs ts).rd = st.rd from rfl, hw] at this; cases this
  have hlen : st.buf.length + ts.length = (lexWith ext input).length - k := by
    have := congrArg List.length h2
    simp only [List.length_append, List.length_drop] at this
    exact this
  constructor
  · rintro ⟨m', st', hr', hc⟩
    obtain ⟨ts', n'', j', hf', hr'', _⟩ := extRun_sim hr' hf
    have hcl : (st'.abs ts').closed = true := by show st'.main.isClosed = true; rw [hc]; rfl
    have := (C02_leak_iff R cap _ r0 hr hw).1 ⟨_, _, hr'', hcl⟩
    refine ⟨k, h3, h1, ?_⟩
    have h4 : st.buf.length + ts.length ≤ cap := this
    omega
  · rintro ⟨k', hk', e, hle⟩
    have := hk k' hk' e
    subst this
    exact ext_can_close _ st ts n' hf hinv hw (by omega) (Nat.le_refl _)

/-- C66.  The goroutine of the Lua lexer is covered: it sends the tokens of the Lua model, reads as many runes, and closes its channel. -/
theorem C66_lua : Implements luaAct luaStarts luaExt := by
  intro name
  by_cases hn : name ∈ luaDirectiveNames
  · refine .inr ⟨if name == setByLuaBlock then .arg [] else .start, luaLex name, ?_, ?_, ?_⟩
    · rw [luaStarts, if_pos (List.contains_iff_mem.2 hn)]
    · rw [luaExt_eq, if_pos hn]
    · intro cs l
      have : LuaDoes (if name == setByLuaBlock then .arg [] else .start) cs l 0 (luaLex name cs l) := by
        unfold luaLex
        split
        · exact luaSetArg_does ..
        · exact luaStart_does ..
      obtain ⟨j, N, e, hx⟩ := this
      rw [Nat.zero_add] at e
      rw [e]
      exact ⟨N, hx⟩
  · refine .inl ⟨?_, ?_⟩
    · rw [luaStarts, if_neg (by rw [List.contains_iff_mem]; exact hn)]
    · rw [luaExt_eq, if_neg hn]

/-- There is always a complete run. -/
theorem C66_complete_run (hi : Implements X exts ext) (cap xcap : Nat) (input : List Char) :
    ∃ m st, ExtRun (tkAct exts) X drain cap xcap m (lexInit input ([], false)) st ∧ st.rd = (lexWith ext input, true) ∧ st.main = .closed ∧ st.ext = .none := by
  obtain ⟨N, hN⟩ := C66_terminates hi drain (fun s => by simp [drain]) input ([], false)
  by_cases hmax : ∃ m st, ExtRun (tkAct exts) X drain cap xcap m (lexInit input ([], false)) st ∧ ∀ st', ¬ ExtStep (tkAct exts) X drain cap xcap st st'
  · obtain ⟨m, st, hr, hm⟩ := hmax
    obtain ⟨e1, e2, e3⟩ := C66_drain_completes hi cap xcap input hr hm
    refine ⟨m, st, hr, ?_, e2, e3⟩
    obtain ⟨mm, x, xb, cs, l, b, ⟨got, saw⟩⟩ := st
    simp only at e1 e2 e3
    subst e1
    cases saw with
    | true => rfl
    | false =>
      obtain ⟨st', h'⟩ := C66_no_deadlock drain cap xcap input _ hr rfl
      exact absurd h' (hm st')
  · exfalso
    have grow : ∀ m, ∃ st, ExtRun (tkAct exts) X drain cap xcap m (lexInit input ([], false)) st := by
      intro m
      induction m with
      | zero => exact ⟨_, .refl _⟩
      | succ m ih =>
        obtain ⟨st, hr⟩ := ih
        by_cases hs : ∃ st', ExtStep (tkAct exts) X drain cap xcap st st'
        · obtain ⟨st', hs⟩ := hs; exact ⟨st', .tail hr hs⟩
        · exact absurd ⟨m, st, hr, fun st' h => hs ⟨st', h⟩⟩ hmax
    obtain ⟨st, hr⟩ := grow (N + 1)
    have := hN _ _ _ _ hr
    omega

/-! ## Examples -/

/-- A Lua block between two directives. -/
def exLuaText : Str := c!"a;\ncontent_by_lua_block { x = {} }\nb;"

/-- What the reader gets. -/
def exLuaToks : List Tok := [⟨c!"a", 1, false, none⟩, ⟨c!";", 1, false, none⟩, ⟨c!"content_by_lua_block", 2, false, none⟩, ⟨c!" x = {} ", 2, true, none⟩,
  ⟨c!";", 2, false, none⟩, ⟨c!"b", 3, false, none⟩, ⟨c!";", 3, false, none⟩]

theorem exLua_lex : lexWith luaExt exLuaText = exLuaToks := by decide +kernel

/-- C66_order: the state of the reader is given by the tokens. -/
example {m : Nat} {st : ExtSt (TkSt LuaSt) LuaSt (List Tok × Bool)} (h : ExtRun (tkAct luaStarts) luaAct drain 3 0 m (lexInit exLuaText ([], false)) st) :
    ∃ k, st.rd = feed drain ([], false) exLuaToks k := by
  obtain ⟨k, e, _⟩ := C66_order C66_lua drain 3 0 exLuaText ([], false) h
  exact ⟨k, exLua_lex ▸ e⟩

/-- C66_drain, C66_complete_run: there is a run over two unbuffered channels, and it delivers the tokens. -/
example : ∃ m st, ExtRun (tkAct luaStarts) luaAct drain 0 0 m (lexInit exLuaText ([], false)) st ∧ st.rd.1 = exLuaToks ∧ st.buf = [] := by
  obtain ⟨m, st, hr, e, _⟩ := C66_complete_run C66_lua 0 0 exLuaText
  have := C66_drain C66_lua 0 0 exLuaText hr (by rw [e]; rfl)
  exact ⟨m, st, hr, exLua_lex ▸ this.1, this.2⟩

/-- C66_no_deadlock, C66_drain_completes: a run that got stuck has delivered everything. -/
example {m : Nat} {st : ExtSt (TkSt LuaSt) LuaSt (List Tok × Bool)} (h : ExtRun (tkAct luaStarts) luaAct drain 3 0 m (lexInit exLuaText ([], false)) st) :
    (∃ st', ExtStep (tkAct luaStarts) luaAct drain 3 0 st st') ∨ st.rd.1 = exLuaToks := by
  by_cases hs : ∃ st', ExtStep (tkAct luaStarts) luaAct drain 3 0 st st'
  · exact .inl hs
  · exact .inr (exLua_lex ▸ (C66_drain_completes C66_lua 3 0 exLuaText h (fun st' h' => hs ⟨st', h'⟩)).1)

/-- C66_terminates. -/
example : ∃ N, ∀ (cap xcap m : Nat) (st : ExtSt (TkSt LuaSt) LuaSt (List Tok × Bool)),
    ExtRun (tkAct luaStarts) luaAct drain cap xcap m (lexInit exLuaText ([], false)) st → m ≤ N :=
  C66_terminates C66_lua drain (fun s => by simp [drain]) exLuaText ([], false)

/-- C66_exclusive: each side alone does come to use the scanner. -/
example : MainUses (tkAct luaStarts) (lexInit (ρ := LuaSt) (ι := List Tok × Bool) exLuaText ([], false)) ∧
    ExtUses luaAct (⟨.drain (tkBack {} c!" "), .live .start, [], c!"{ }", 1, [], ([], false)⟩ : ExtSt (TkSt LuaSt) LuaSt (List Tok × Bool)) :=
  ⟨.inl ⟨_, _, rfl, rfl⟩, ⟨_, _, rfl, rfl⟩⟩

/-- C66_leak_iff: a reader that does not want any token: with 7 tokens and a capacity of 6 `tokenize` never returns, with a capacity of 7 it can. -/
def never : Reader Unit := { wants := fun _ => false, step := fun s _ => s }

example : (¬ ∃ m st, ExtRun (tkAct luaStarts) luaAct never 6 0 m (lexInit exLuaText ()) st ∧ st.main = .closed) ∧
    (∃ m st, ExtRun (tkAct luaStarts) luaAct never 7 0 m (lexInit exLuaText ()) st ∧ st.main = .closed) := by
  constructor
  · intro h
    obtain ⟨k, h1, _, h3⟩ := (C66_leak_iff C66_lua never 6 0 exLuaText () (.refl _) rfl).1 h
    rw [exLua_lex] at h3
    cases k with
    | zero => revert h3; decide
    | succ k => have := h1 0 (by omega); cases this
  · refine (C66_leak_iff C66_lua never 7 0 exLuaText () (.refl _) rfl).2 ⟨0, fun i hi => absurd hi (by omega), rfl, ?_⟩
    rw [exLua_lex]; decide

end Verif
