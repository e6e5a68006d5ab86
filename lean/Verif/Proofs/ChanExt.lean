import Verif.Spec.Sequential
import Verif.Proofs.ChanInv
/-!
# The goroutines with external lexers behave like one goroutine that sends the sequential tokens
-/
namespace Verif
open Spec

variable {σ ρ ι : Type} {M : σ → TAct σ ρ} {X : ρ → LAct ρ} {R : Reader ι} {cap xcap : Nat}

/-- Like `XSeq`, also for a goroutine that has returned. -/
inductive XRest (X : ρ → LAct ρ) : XSt ρ → List Char → Int → List Tok → List Char → Int → Nat → Prop where
  | live {r cs l ts cs' l' n} (h : XSeq X r cs l ts cs' l' n) : XRest X (.live r) cs l ts cs' l' n
  | closed {cs l} : XRest X .closed cs l [] cs l 0

/-- What `tokenize` will still send from a state, and a bound for the steps that are neither a send nor the close on the token channel nor made by the reader. -/
inductive Fut (M : σ → TAct σ ρ) (X : ρ → LAct ρ) : ExtSt σ ρ ι → List Tok → Nat → Prop where
  | run {s xb cs l b r ts n} (h : MSeq M X s cs ts n) : Fut M X ⟨.run s, .none, xb, cs, l, b, r⟩ ts n
  | drain {k x xb cs l b r ts1 cs' l' n1 ts2 n2} (hx : XRest X x cs l ts1 cs' l' n1) (h : MSeq M X (k l') cs' ts2 n2) :
      Fut M X ⟨.drain k, x, xb, cs, l, b, r⟩ (xb ++ ts1 ++ ts2) (xb.length + n1 + n2 + 1)
  | fwd {t k x xb cs l b r ts1 cs' l' n1 ts2 n2} (hx : XRest X x cs l ts1 cs' l' n1) (h : MSeq M X (k l') cs' ts2 n2) :
      Fut M X ⟨.fwd t k, x, xb, cs, l, b, r⟩ (t :: (xb ++ ts1 ++ ts2)) (xb.length + n1 + n2 + 1)
  | closed {xb cs l b r} : Fut M X ⟨.closed, .none, xb, cs, l, b, r⟩ [] 0

def MSt.isClosed : MSt σ → Bool
  | .closed => true
  | _ => false

/-- The state of the two-party model. -/
def ExtSt.abs (st : ExtSt σ ρ ι) (ts : List Tok) : ChanSt ι := ⟨ts, st.buf, st.main.isClosed, st.rd⟩

/-- Every step is invisible and uses up the bound, or it is a step of the two-party model. -/
theorem extStep_sim {st st' : ExtSt σ ρ ι} (hs : ExtStep M X R cap xcap st st') {ts : List Tok} {n : Nat} (hf : Fut M X st ts n) :
    (∃ n', Fut M X st' ts n' ∧ n' + 1 ≤ n ∧ st'.abs ts = st.abs ts) ∨
    (∃ ts' n', Fut M X st' ts' n' ∧ n' ≤ n ∧ ChanStep R cap (st.abs ts) (st'.abs ts')) := by
  cases hs with
  | scan s k x xb c cs l b r h =>
    cases hf with
    | run hm =>
      cases hm with
      | scan h2 hr => rw [h] at h2; cases h2; exact .inl ⟨_, .run hr, Nat.le_refl _, rfl⟩
      | send h2 hr => rw [h] at h2; cases h2
      | call h2 _ _ => rw [h] at h2; cases h2
      | close h2 => rw [h] at h2; cases h2
  | eof s k x xb l b r h =>
    cases hf with
    | run hm =>
      cases hm with
      | eof h2 hr => rw [h] at h2; cases h2; exact .inl ⟨_, .run hr, Nat.le_refl _, rfl⟩
      | send h2 hr => rw [h] at h2; cases h2
      | call h2 _ _ => rw [h] at h2; cases h2
      | close h2 => rw [h] at h2; cases h2
  | send s t k x xb cs l b r h hb =>
    cases hf with
    | run hm =>
      cases hm with
      | scan h2 hr => rw [h] at h2; cases h2
      | eof h2 hr => rw [h] at h2; cases h2
      | send h2 hr => rw [h] at h2; cases h2; exact .inr ⟨_, _, .run hr, Nat.le_refl _, .send _ _ _ _ hb⟩
      | call h2 _ _ => rw [h] at h2; cases h2
      | close h2 => rw [h] at h2; cases h2
  | handoff s t k x xb cs l r h hw =>
    cases hf with
    | run hm =>
      cases hm with
      | scan h2 hr => rw [h] at h2; cases h2
      | eof h2 hr => rw [h] at h2; cases h2
      | send h2 hr => rw [h] at h2; cases h2; exact .inr ⟨_, _, .run hr, Nat.le_refl _, .handoff _ _ _ hw⟩
      | call h2 _ _ => rw [h] at h2; cases h2
      | close h2 => rw [h] at h2; cases h2
  | call s e ln k x xb cs l b r h =>
    cases hf with
    | run hm =>
      cases hm with
      | scan h2 hr => rw [h] at h2; cases h2
      | eof h2 hr => rw [h] at h2; cases h2
      | send h2 hr => rw [h] at h2; cases h2
      | call h2 hx hr => rw [h] at h2; cases h2; exact .inl ⟨_, .drain (xb := []) (.live hx) hr, by simp, rfl⟩
      | close h2 => rw [h] at h2; cases h2
  | close s x xb cs l b r h =>
    cases hf with
    | run hm =>
      cases hm with
      | scan h2 hr => rw [h] at h2; cases h2
      | eof h2 hr => rw [h] at h2; cases h2
      | send h2 hr => rw [h] at h2; cases h2
      | call h2 _ _ => rw [h] at h2; cases h2
      | close h2 => exact .inr ⟨_, _, .closed, Nat.le_refl _, .close _ _⟩
  | xscan m e k xb c cs l b r h =>
    cases hf with
    | drain hx hm =>
      cases hx with
      | live hx =>
        cases hx with
        | scan h2 hr => rw [h] at h2; cases h2; exact .inl ⟨_, .drain (.live hr) hm, by omega, rfl⟩
        | send h2 hr => rw [h] at h2; cases h2
        | stop h2 => rw [h] at h2; cases h2
    | fwd hx hm =>
      cases hx with
      | live hx =>
        cases hx with
        | scan h2 hr => rw [h] at h2; cases h2; exact .inl ⟨_, .fwd (.live hr) hm, by omega, rfl⟩
        | send h2 hr => rw [h] at h2; cases h2
        | stop h2 => rw [h] at h2; cases h2
  | xeof m e k xb l b r h =>
    cases hf with
    | drain hx hm =>
      cases hx with
      | live hx =>
        cases hx with
        | eof h2 hr => rw [h] at h2; cases h2; exact .inl ⟨_, .drain (.live hr) hm, by omega, rfl⟩
        | send h2 hr => rw [h] at h2; cases h2
        | stop h2 => rw [h] at h2; cases h2
    | fwd hx hm =>
      cases hx with
      | live hx =>
        cases hx with
        | eof h2 hr => rw [h] at h2; cases h2; exact .inl ⟨_, .fwd (.live hr) hm, by omega, rfl⟩
        | send h2 hr => rw [h] at h2; cases h2
        | stop h2 => rw [h] at h2; cases h2
  | xsend m e t e' xb cs l b r h hb =>
    cases hf with
    | @drain _ _ _ _ _ _ _ _ _ _ _ ts2 _ hx hm =>
      cases hx with
      | live hx =>
        cases hx with
        | scan h2 hr => rw [h] at h2; cases h2
        | eof h2 hr => rw [h] at h2; cases h2
        | @send _ _ _ _ _ ts _ _ _ h2 hr =>
          rw [h] at h2; cases h2
          have e1 : xb ++ t :: ts ++ ts2 = (xb ++ [t]) ++ ts ++ ts2 := by simp
          rw [e1]
          refine .inl ⟨_, .drain (.live hr) hm, ?_, rfl⟩
          simp only [List.length_append, List.length_singleton]; omega
        | stop h2 => rw [h] at h2; cases h2
    | @fwd _ _ _ _ _ _ _ _ _ _ _ _ ts2 _ hx hm =>
      cases hx with
      | live hx =>
        cases hx with
        | scan h2 hr => rw [h] at h2; cases h2
        | eof h2 hr => rw [h] at h2; cases h2
        | @send _ _ _ _ _ ts _ _ _ h2 hr =>
          rw [h] at h2; cases h2
          have e1 : xb ++ t :: ts ++ ts2 = (xb ++ [t]) ++ ts ++ ts2 := by simp
          rw [e1]
          refine .inl ⟨_, .fwd (.live hr) hm, ?_, rfl⟩
          simp only [List.length_append, List.length_singleton]; omega
        | stop h2 => rw [h] at h2; cases h2
  | xhandoff k e t e' cs l b r h =>
    cases hf with
    | drain hx hm =>
      cases hx with
      | live hx =>
        cases hx with
        | scan h2 hr => rw [h] at h2; cases h2
        | eof h2 hr => rw [h] at h2; cases h2
        | send h2 hr =>
          rw [h] at h2; cases h2
          exact .inl ⟨_, .fwd (xb := []) (.live hr) hm, by omega, rfl⟩
        | stop h2 => rw [h] at h2; cases h2
  | xstop m e xb cs l b r h =>
    cases hf with
    | drain hx hm =>
      cases hx with
      | live hx =>
        cases hx with
        | scan h2 hr => rw [h] at h2; cases h2
        | eof h2 hr => rw [h] at h2; cases h2
        | send h2 hr => rw [h] at h2; cases h2
        | stop h2 => exact .inl ⟨_, .drain .closed hm, by omega, rfl⟩
    | fwd hx hm =>
      cases hx with
      | live hx =>
        cases hx with
        | scan h2 hr => rw [h] at h2; cases h2
        | eof h2 hr => rw [h] at h2; cases h2
        | send h2 hr => rw [h] at h2; cases h2
        | stop h2 => exact .inl ⟨_, .fwd .closed hm, by omega, rfl⟩
  | xrecv k x t xb cs l b r =>
    cases hf with
    | drain hx hm => exact .inl ⟨_, .fwd hx hm, by simp only [List.length_cons]; omega, rfl⟩
  | fwd t k x xb cs l b r hb =>
    cases hf with
    | fwd hx hm => exact .inr ⟨_, _, .drain hx hm, Nat.le_refl _, .send _ _ _ _ hb⟩
  | fwdHandoff t k x xb cs l r hw =>
    cases hf with
    | fwd hx hm => exact .inr ⟨_, _, .drain hx hm, Nat.le_refl _, .handoff _ _ _ hw⟩
  | ret k cs l b r =>
    cases hf with
    | drain hx hm =>
      cases hx with
      | closed => exact .inl ⟨_, .run hm, by simp, rfl⟩
  | recv m x xb cs l t b r hw =>
    refine .inr ⟨ts, n, ?_, Nat.le_refl _, .receive _ _ _ _ _ hw⟩
    cases hf with
    | run h => exact .run h
    | drain hx h => exact .drain hx h
    | fwd hx h => exact .fwd hx h
    | closed => exact .closed
  | recvClosed x xb cs l r hw =>
    cases hf with
    | closed => exact .inr ⟨_, _, .closed, Nat.le_refl _, .receiveClosed _ _ hw⟩

/-- A run is a run of the two-party model with invisible steps in between. -/
theorem extRun_sim {st0 st : ExtSt σ ρ ι} {m : Nat} (hr : ExtRun M X R cap xcap m st0 st) {ts0 : List Tok} {n0 : Nat} (hf : Fut M X st0 ts0 n0) :
    ∃ ts n j, Fut M X st ts n ∧ ChanRun R cap j (st0.abs ts0) (st.abs ts) ∧ m + n ≤ j + n0 := by
  induction hr with
  | refl st => exact ⟨ts0, n0, 0, hf, .refl _, by omega⟩
  | tail hr hs ih =>
    obtain ⟨ts, n, j, f1, r1, l1⟩ := ih hf
    rcases extStep_sim hs f1 with ⟨n', f2, l2, e⟩ | ⟨ts', n', f2, l2, c2⟩
    · exact ⟨ts, n', j, f2, e ▸ r1, by omega⟩
    · exact ⟨ts', n', j + 1, f2, .tail r1 c2, by omega⟩

theorem fut_init {s : σ} {cs : List Char} {ts : List Tok} {n : Nat} (h : MSeq M X s cs ts n) (r : ι) :
    Fut M X (ExtSt.init (ρ := ρ) s cs r) ts n := .run h

/-- The goroutine of an external lexer exists only while `tokenize` reads from it. -/
def ExtInv (st : ExtSt σ ρ ι) : Prop :=
  match st.main with
  | .run _ => st.ext = .none
  | .closed => st.ext = .none
  | _ => st.ext ≠ .none

theorem extInv_step {st st' : ExtSt σ ρ ι} (hs : ExtStep M X R cap xcap st st') (h : ExtInv st) : ExtInv st' := by
  cases hs with
  | xscan m e k xb c cs l b r h2 => cases m <;> simp_all [ExtInv]
  | xeof m e k xb l b r h2 => cases m <;> simp_all [ExtInv]
  | xsend m e t e' xb cs l b r h2 hb => cases m <;> simp_all [ExtInv]
  | xstop m e xb cs l b r h2 => cases m <;> simp_all [ExtInv]
  | recv m x xb cs l t b r hw => cases m <;> simp_all [ExtInv]
  | _ => simp_all [ExtInv]

theorem extInv_run {st st' : ExtSt σ ρ ι} {m : Nat} (hr : ExtRun M X R cap xcap m st st') (h : ExtInv st) : ExtInv st' := by
  induction hr with
  | refl => exact h
  | tail _ hs ih => exact extInv_step hs (ih h)

/-- As long as `tokenize` has not returned and the token channel is not full, a step is possible. -/
theorem ext_progress {st : ExtSt σ ρ ι} (hi : ExtInv st) (hc : st.main.isClosed = false)
    (hroom : st.buf.length < cap ∨ (st.buf = [] ∧ R.wants st.rd = true) ∨ Fut M X st [] 0 ∨ ∃ n, Fut M X st [] n) :
    ∃ st', ExtStep M X R cap xcap st st' := by
  obtain ⟨m, x, xb, cs, l, b, r⟩ := st
  have hsend : ∀ {P : Prop}, (Fut M X (⟨m, x, xb, cs, l, b, r⟩ : ExtSt σ ρ ι) [] 0 → P) →
      (∀ n, Fut M X (⟨m, x, xb, cs, l, b, r⟩ : ExtSt σ ρ ι) [] n → P) → (b.length < cap → P) → (b = [] ∧ R.wants r = true → P) → P := by
    intro P a1 a2 a3 a4
    rcases hroom with h | h | h | ⟨n, h⟩
    · exact a3 h
    · exact a4 h
    · exact a1 h
    · exact a2 n h
  cases m with
  | closed => cases hc
  | run s =>
    cases hM : M s with
    | scan k => cases cs with
      | nil => exact ⟨_, .eof _ _ _ _ _ _ _ hM⟩
      | cons c cs => exact ⟨_, .scan _ _ _ _ _ _ _ _ _ hM⟩
    | call e ln k => exact ⟨_, .call _ _ _ _ _ _ _ _ _ _ hM⟩
    | close => exact ⟨_, .close _ _ _ _ _ _ _ hM⟩
    | send t k =>
      have aux : ∀ n, ¬ Fut M X (⟨.run s, x, xb, cs, l, b, r⟩ : ExtSt σ ρ ι) [] n := by
        intro n hf
        generalize hts : ([] : List Tok) = ts at hf
        cases hf with
        | run hm => cases hm with
          | scan h2 _ => rw [hM] at h2; cases h2
          | eof h2 _ => rw [hM] at h2; cases h2
          | send h2 _ => cases hts
          | call h2 _ _ => rw [hM] at h2; cases h2
          | close h2 => rw [hM] at h2; cases h2
      apply hsend
      · intro h; exact absurd h (aux _)
      · intro n h; exact absurd h (aux _)
      · intro h; exact ⟨_, .send _ _ _ _ _ _ _ _ _ hM h⟩
      · rintro ⟨rfl, h⟩; exact ⟨_, .handoff _ _ _ _ _ _ _ _ hM h⟩
  | drain k =>
    cases xb with
    | cons t xb => exact ⟨_, .xrecv _ _ _ _ _ _ _ _⟩
    | nil =>
      cases x with
      | none => exact absurd rfl hi
      | closed => exact ⟨_, .ret _ _ _ _ _⟩
      | live e =>
        cases hX : X e with
        | scan k => cases cs with
          | nil => exact ⟨_, .xeof _ _ _ _ _ _ _ hX⟩
          | cons c cs => exact ⟨_, .xscan _ _ _ _ _ _ _ _ _ hX⟩
        | send t e' => exact ⟨_, .xhandoff _ _ _ _ _ _ _ _ hX⟩
        | stop => exact ⟨_, .xstop _ _ _ _ _ _ _ hX⟩
  | fwd t k =>
    have aux : ∀ n, ¬ Fut M X (⟨.fwd t k, x, xb, cs, l, b, r⟩ : ExtSt σ ρ ι) [] n := by
      intro n hf
      generalize hts : ([] : List Tok) = ts at hf
      cases hf with
      | fwd _ _ => cases hts
    apply hsend
    · intro h; exact absurd h (aux _)
    · intro n h; exact absurd h (aux _)
    · intro h; exact ⟨_, .fwd _ _ _ _ _ _ _ _ h⟩
    · rintro ⟨rfl, h⟩; exact ⟨_, .fwdHandoff _ _ _ _ _ _ _ h⟩

/-! ## `tokenize` and the Lua lexer, sequentially -/

theorem tokenizeLoop_skip (ext : ExtLexers) (k : Nat) (st : LexSt) (cs : List Char) :
    tokenizeLoop ext k st cs = tokenizeLoop ext 0 st (cs.drop k) := by
  induction k generalizing cs with
  | zero => simp
  | succ k ih =>
    cases cs with
    | nil => simp [tokenizeLoop]
    | cons c cs => rw [tokenizeLoop, ih, List.drop_succ_cons]

theorem mseq_out {exts : Str → Option ρ} {X : ρ → LAct ρ} (ts : List Tok) {next : Option LexSt} {cs : List Char} {ts' : List Tok} {n : Nat}
    (h : MSeq (tkAct exts) X (.out [] next) cs ts' n) : MSeq (tkAct exts) X (.out ts next) cs (ts ++ ts') n := by
  induction ts with
  | nil => exact h
  | cons t ts ih => exact .send rfl ih

theorem mseq_close {exts : Str → Option ρ} {X : ρ → LAct ρ} (ts : List Tok) (cs : List Char) :
    MSeq (tkAct exts) X (.out ts none) cs ts 0 := by
  have := mseq_out (exts := exts) (X := X) ts (next := none) (cs := cs) (.close rfl)
  rwa [List.append_nil] at this

/-- `tokenize` sends what the lexer model says. -/
theorem tokenize_seq {X : ρ → LAct ρ} {exts : Str → Option ρ} {ext : ExtLexers} (hi : Implements X exts ext) :
    ∀ (len : Nat) (cs : List Char), cs.length ≤ len → ∀ st : LexSt, ∃ n, MSeq (tkAct exts) X (.out [] (some st)) cs (tokenizeLoop ext 0 st cs) n
  | len, [], _, st => ⟨_, .eof (k := _) rfl (by rw [tokenizeLoop]; exact mseq_close _ _)⟩
  | 0, c :: cs, h, _ => by simp at h
  | len + 1, c :: cs, h, st => by
    have hlen : cs.length ≤ len := by simpa using h
    have ih := tokenize_seq hi len
    suffices hs : ∃ n, MSeq (tkAct exts) X (tkRound exts st c) cs (tokenizeLoop ext 0 st (c :: cs)) n by
      obtain ⟨n, hn⟩ := hs
      exact ⟨n + 1, .scan rfl hn⟩
    rw [tokenizeLoop]
    unfold tkRound
    generalize (if c == '\n' then { st with tokenLine := st.tokenLine + 1, nextTokenIsDirective := true } else st) = st
    dsimp only
    split
    · exact ih cs hlen _
    · split
      · exact ih cs hlen _
      · generalize (if st.esc = true then ['\\', c] else [c]) = la
        have hsw : ∀ (s : LexSt) (cs' : List Char), cs'.length ≤ len →
            ∃ n, MSeq (tkAct exts) X (.out (lexSwitch s la).1 (lexSwitch s la).2) cs'
              (match lexSwitch s la with | (out, none) => out | (out, some st') => out ++ tokenizeLoop ext 0 st' cs') n := by
          intro s cs' hl
          rcases hsw : lexSwitch s la with ⟨out, _ | st'⟩
          · exact ⟨_, mseq_close _ _⟩
          · obtain ⟨n, hn⟩ := ih cs' hl st'
            exact ⟨n, mseq_out _ hn⟩
        have hnone : (if ({ st with esc := false } : LexSt).token.length > 0 && ({ st with esc := false } : LexSt).nextTokenIsDirective then
              exts ({ st with esc := false } : LexSt).token else none) = none →
            (if ({ st with esc := false } : LexSt).token.length > 0 && ({ st with esc := false } : LexSt).nextTokenIsDirective then
              ext ({ st with esc := false } : LexSt).token else none) = none := by
          intro h1
          split at h1
          · rename_i hc
            rw [if_pos hc]
            rcases hi st.token with ⟨_, h2⟩ | ⟨e, f, h2, _⟩
            · exact h2
            · rw [show exts _ = some e from h2] at h1; cases h1
          · rename_i hc; rw [if_neg hc]
        cases he : (if ({ st with esc := false } : LexSt).token.length > 0 && ({ st with esc := false } : LexSt).nextTokenIsDirective then
              exts ({ st with esc := false } : LexSt).token else none) with
        | none =>
          rw [hnone he]
          obtain ⟨n, hn⟩ := hsw { st with esc := false } cs hlen
          exact ⟨n, hn⟩
        | some e =>
          obtain ⟨f, hf, hx⟩ : ∃ f, (if ({ st with esc := false } : LexSt).token.length > 0 && ({ st with esc := false } : LexSt).nextTokenIsDirective then
              ext ({ st with esc := false } : LexSt).token else none) = some f ∧
              ∀ cs l, ∃ n, XSeq X e cs l (f cs l).1 (cs.drop (f cs l).2) (l + (cs.take (f cs l).2).count '\n') n := by
            split at he
            · rename_i hc
              rw [if_pos hc]
              rcases hi st.token with ⟨h2, _⟩ | ⟨e', f, h2, h3, h4⟩
              · rw [show exts _ = none from h2] at he; cases he
              · rw [show exts _ = some e' from h2] at he; cases he
                exact ⟨f, h3, h4⟩
            · cases he
          rw [hf]
          obtain ⟨nx, hx⟩ := hx cs st.tokenLine
          generalize hrr : f cs st.tokenLine = rr at hx
          obtain ⟨xts, kx⟩ := rr
          dsimp only at hx ⊢
          rw [hrr]
          dsimp only
          have hdl : (cs.drop kx).length ≤ len := by rw [List.length_drop]; omega
          have hcall : ∀ (nm : Tok) (ts : List Tok) (n : Nat), MSeq (tkAct exts) X (tkBack { st with esc := false } la (st.tokenLine + countNL (cs.take kx))) (cs.drop kx) ts n →
              ∃ n, MSeq (tkAct exts) X (.name nm { st with esc := false } la e) cs (nm :: xts ++ ts) n := by
            intro nm ts n hn
            refine ⟨nx + n + 2, ?_⟩
            apply MSeq.send (t := nm) (k := .calling { st with esc := false } la e) (ts := xts ++ ts)
            · rfl
            · exact MSeq.call (M := tkAct exts) (X := X) (s := .calling { st with esc := false } la e) (cs := cs) rfl hx hn
          unfold tkBack at hcall
          split
          · rename_i hq
            rw [tokenizeLoop_skip]
            obtain ⟨n, hn⟩ := ih _ hdl { ({ st with esc := false } : LexSt).reset with tokenLine := st.tokenLine + countNL (cs.take kx) }
            simp only [] at hcall
            rw [if_pos hq] at hcall
            exact hcall _ _ n hn
          · rename_i hq
            simp only [] at hcall
            rw [if_neg hq] at hcall
            obtain ⟨n, hn⟩ := hsw { ({ st with esc := false } : LexSt).reset with tokenLine := st.tokenLine + countNL (cs.take kx) } _ hdl
            have := hcall (LexSt.emitTok { st with esc := false } st.tokenStartLine (st.lexState == .inQuote) none) _ n hn
            split
            · rename_i hl
              rw [hl] at this
              exact this
            · rename_i hl
              rw [hl] at this
              rw [tokenizeLoop_skip]
              simpa using this

/-- The goroutine of the Lua lexer in state `r` does what a call of the model with the result `res` does; `n` runes were read before. -/
def LuaDoes (r : LuaSt) (cs : List Char) (l : Int) (n : Nat) (res : List Tok × Nat) : Prop :=
  ∃ j N, res.2 = n + j ∧ XSeq luaAct r cs l res.1 (cs.drop j) (l + (cs.take j).count '\n') N

theorem scanLine_count (l : Int) (c : Char) (cs : List Char) : scanLine l c + (cs.count '\n' : Int) = l + ((c :: cs).count '\n' : Int) := by
  unfold scanLine
  rw [List.count_cons]
  split <;> simp <;> omega

theorem luaDoes_scan {r r' : LuaSt} {k : Option Char → Int → LuaSt} {c : Char} {cs : List Char} {l : Int} {n : Nat} {res : List Tok × Nat}
    (h1 : luaAct r = .scan k) (h2 : k (some c) (scanLine l c) = r') (h : LuaDoes r' cs (scanLine l c) (n + 1) res) : LuaDoes r (c :: cs) l n res := by
  obtain ⟨j, N, e, hx⟩ := h
  refine ⟨j + 1, N + 1, by omega, ?_⟩
  rw [List.drop_succ_cons, List.take_succ_cons, ← scanLine_count]
  exact .scan h1 (h2 ▸ hx)

theorem luaDoes_stop (cs : List Char) (l : Int) (n : Nat) : LuaDoes (.out [] false) cs l n ([], n) :=
  ⟨0, 1, rfl, by simpa using XSeq.stop (X := luaAct) rfl⟩

theorem luaDoes_send {t : Tok} {ts : List Tok} {g : Bool} {cs : List Char} {l : Int} {n : Nat} {res : List Tok × Nat} (h : LuaDoes (.out ts g) cs l n res) :
    LuaDoes (.out (t :: ts) g) cs l n (t :: res.1, res.2) := by
  obtain ⟨j, N, e, hx⟩ := h
  exact ⟨j, N + 2, e, .send rfl hx⟩

theorem luaDoes_eof {r r' : LuaSt} {k : Option Char → Int → LuaSt} {l : Int} {n : Nat} {res : List Tok × Nat}
    (h1 : luaAct r = .scan k) (h2 : k none l = r') (h : LuaDoes r' [] l n res) : LuaDoes r [] l n res := by
  obtain ⟨j, N, e, hx⟩ := h
  refine ⟨j, N + 1, e, ?_⟩
  exact .eof h1 (h2 ▸ hx)

theorem luaBody_does : ∀ (cs : List Char) (d : Int) (q : Bool) (qt tok : Str) (l : Int) (n : Nat),
    LuaDoes (.body d q qt tok) cs l n (luaBody d q qt tok l n cs)
  | [], d, q, qt, tok, l, n => by
    rw [luaBody]
    exact luaDoes_eof rfl rfl (luaDoes_stop _ _ _)
  | c :: cs, d, q, qt, tok, l, n => by
    refine luaDoes_scan (r' := luaRound d q qt tok c (scanLine l c)) rfl rfl ?_
    rw [luaBody]
    unfold luaRound
    dsimp only
    split
    · exact luaBody_does ..
    · split
      · split
        · exact luaDoes_send (luaDoes_stop _ _ _)
        · split
          · exact luaDoes_send (luaDoes_send (luaDoes_stop _ _ _))
          · exact luaBody_does ..
      · split
        · split
          · exact luaBody_does ..
          · split <;> exact luaBody_does ..
        · split
          · exact luaBody_does ..
          · split
            · exact luaDoes_send (luaDoes_stop _ _ _)
            · exact luaBody_does ..

theorem luaStartRound_does {cs : List Char} (ih : ∀ l n, LuaDoes .start cs l n (luaStart l n cs)) {r : LuaSt} {k : Option Char → Int → LuaSt} (c : Char) (l : Int) (n : Nat)
    (h1 : luaAct r = .scan k) (h2 : k (some c) (scanLine l c) = luaStartRound c (scanLine l c)) : LuaDoes r (c :: cs) l n (luaStart l n (c :: cs)) := by
  refine luaDoes_scan h1 h2 ?_
  rw [luaStart]
  unfold luaStartRound
  split
  · split
    · exact luaDoes_send (luaDoes_stop _ _ _)
    · exact luaBody_does ..
  · exact ih _ _

theorem luaStart_does : ∀ (cs : List Char) (l : Int) (n : Nat), LuaDoes .start cs l n (luaStart l n cs)
  | [], l, n => by
    rw [luaStart]
    exact luaDoes_eof rfl rfl (luaDoes_stop _ _ _)
  | c :: cs, l, n => luaStartRound_does (luaStart_does cs) c l n rfl rfl

theorem luaOn_does (cs : List Char) (l : Int) (n : Nat) : LuaDoes (.out [] true) cs l n (luaStart l n cs) := by
  cases cs with
  | nil =>
    rw [luaStart]
    exact luaDoes_eof rfl rfl (luaDoes_stop _ _ _)
  | cons c cs => exact luaStartRound_does (luaStart_does cs) c l n rfl rfl

theorem luaSetArg_does : ∀ (cs : List Char) (a : Str) (l : Int) (n : Nat), LuaDoes (.arg a) cs l n (luaSetArg a l n cs)
  | [], a, l, n => by
    rw [luaSetArg]
    exact luaDoes_eof rfl rfl (luaDoes_stop _ _ _)
  | c :: cs, a, l, n => by
    refine luaDoes_scan rfl rfl ?_
    rw [luaSetArg]
    dsimp only
    split
    · split
      · exact luaDoes_send (luaOn_does ..)
      · exact luaSetArg_does ..
    · exact luaSetArg_does ..

end Verif
