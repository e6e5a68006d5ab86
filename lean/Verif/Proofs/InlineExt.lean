import Verif.Proofs.InlineText
import Verif.Proofs.ConcatExt
/-!
# The tokens of a text in which lines are replaced, with external lexers
-/
namespace Verif
open Spec ExtLex

variable {ext : ExtLexers}

/-- The lexer reads a text from one state to another; the calls of external lexers end before the end of the text.  With `quiet` there are no calls. -/
inductive RunE (ext : ExtLexers) (quiet : Bool) : LexSt → List Char → List Tok → LexSt → Prop
  | nil (st : LexSt) : RunE ext quiet st [] [] st
  | step {st st1 st2 : LexSt} {c : Char} {cs : List Char} {o o2 : List Tok} : lookAt ext st c = none → lexStep st c = (o, some st1) → RunE ext quiet st1 cs o2 st2 →
      RunE ext quiet st (c :: cs) (o ++ o2) st2
  | call {st st1 st2 : LexSt} {c : Char} {cs : List Char} {o o2 : List Tok} {lx : ExtLexer} : quiet = false → lookAt ext st c = some lx →
      EndsBefore (lx, cs, (bump st c).tokenLine) → callStep lx st c cs = (o, some st1) → RunE ext quiet st1 (cs.drop (lx cs (bump st c).tokenLine).2) o2 st2 →
      RunE ext quiet st (c :: cs) (o ++ o2) st2

theorem RunE.loop {q : Bool} {st st' : LexSt} {a : List Char} {out : List Tok} (h : RunE ext q st a out st') (b : List Char) :
    loopE ext st (a ++ b) = out ++ loopE ext st' b := by
  induction h with
  | nil st => rfl
  | step hl hs _ ih => rw [List.cons_append, loopE_none hl, hs, continE, ih, List.append_assoc]
  | @call st s1 s2 c cs o o2 lx _ hl hc hs _ ih =>
    rw [List.cons_append, loopE_some hl, callStep_append hc, hs, continE, show lx (cs ++ b) _ = _ from hc.2 b,
      List.drop_append_of_le_length (Nat.le_of_lt hc.1), ih, List.append_assoc]

theorem RunE.lex {q : Bool} {st' : LexSt} {a : List Char} {out : List Tok} (h : RunE ext q {} a out st') : lexWith ext a = out ++ lexFinish st' := by
  have := h.loop []
  rw [List.append_nil, loopE_nil] at this
  exact this

theorem RunE.reach {q : Bool} {st st' : LexSt} {a : List Char} {out : List Tok} (h : RunE ext q st a out st') (hr : Reach st) : Reach st' := by
  induction h with
  | nil st => exact hr
  | step _ hs _ ih => exact ih (reach_step hr hs)
  | call _ hl _ hs _ ih => exact ih (reach_call hr hl hs)

theorem RunE.append {q : Bool} {st st' st'' : LexSt} {a b : List Char} {o o' : List Tok} (h : RunE ext q st a o st') (h' : RunE ext q st' b o' st'') :
    RunE ext q st (a ++ b) (o ++ o') st'' := by
  induction h with
  | nil st => exact h'
  | step hl hs _ ih => rw [List.append_assoc]; exact .step hl hs (ih h')
  | @call st st1 st2 c cs o o2 lx hq hl hc hs _ ih =>
    have e := hc.2 b
    simp only at e
    rw [List.append_assoc]
    refine .call hq hl ?_ ((callStep_append hc b).trans hs) ?_
    · refine ⟨?_, fun b' => ?_⟩
      · show (lx (cs ++ b) _).2 < (cs ++ b).length
        rw [e, List.length_append]
        have := hc.1
        simp only at this
        omega
      · show lx (cs ++ b ++ b') _ = lx (cs ++ b) _
        rw [e, List.append_assoc]
        exact hc.2 (b ++ b')
    · show RunE ext q st1 (List.drop (lx (cs ++ b) (bump st c).tokenLine).2 (cs ++ b)) (o2 ++ o') st''
      rw [e, List.drop_append_of_le_length (Nat.le_of_lt hc.1)]
      exact ih h'

/-- A text whose calls end before its end is read to its end, or there is an error in it. -/
theorem runE_or : ∀ (N : Nat) (a : List Char), a.length ≤ N → ∀ {st : LexSt}, Reach st → (∀ call ∈ extCalls ext 0 st a, EndsBefore call) →
    (∃ out st', RunE ext false st a out st') ∨ ∃ out, (∃ t ∈ out, t.error ≠ none) ∧ ∀ b, loopE ext st (a ++ b) = out := by
  intro N
  induction N with
  | zero =>
    intro a hN st hr hcl
    obtain rfl : a = [] := List.length_eq_zero_iff.mp (by omega)
    exact Or.inl ⟨[], st, .nil st⟩
  | succ N ih =>
    intro a hN st hr hcl
    cases a with
    | nil => exact Or.inl ⟨[], st, .nil st⟩
    | cons c cs =>
      have hN' : cs.length ≤ N := by simpa using hN
      cases hl : lookAt ext st c with
      | none =>
        rcases hs : lexStep st c with ⟨out, _ | st'⟩
        · exact Or.inr ⟨out, stop_step hs, fun b => by rw [List.cons_append, loopE_none hl, hs]; rfl⟩
        · have hcl' : ∀ call ∈ extCalls ext 0 st' cs, EndsBefore call := by
            intro call hc
            refine hcl call ?_
            rw [extCalls, hl]
            simp only [hs]
            exact hc
          rcases ih cs hN' (reach_step hr hs) hcl' with ⟨o2, st2, h⟩ | ⟨o2, ⟨t, ht, hte⟩, h⟩
          · exact Or.inl ⟨_, _, .step hl hs h⟩
          · exact Or.inr ⟨out ++ o2, ⟨t, List.mem_append_right _ ht, hte⟩, fun b => by rw [List.cons_append, loopE_none hl, hs, continE, h]⟩
      | some lx =>
        have hcall : EndsBefore (lx, cs, (bump st c).tokenLine) := hcl _ (by rw [extCalls, hl]; exact List.mem_cons_self)
        rcases hs : callStep lx st c cs with ⟨out, _ | st'⟩
        · exact Or.inr ⟨out, stop_call hs, fun b => by rw [List.cons_append, loopE_some hl, callStep_append hcall, hs]; rfl⟩
        · have hcl' : ∀ call ∈ extCalls ext 0 st' (cs.drop (lx cs (bump st c).tokenLine).2), EndsBefore call := by
            intro call hc
            refine hcl call ?_
            rw [extCalls, hl]
            simp only [hs]
            rw [extCalls_drop]
            exact List.mem_cons_of_mem _ hc
          rcases ih (cs.drop (lx cs (bump st c).tokenLine).2) (by rw [List.length_drop]; omega) (reach_call hr hl hs) hcl' with ⟨o2, st2, h⟩ | ⟨o2, ⟨t, ht, hte⟩, h⟩
          · exact Or.inl ⟨_, _, .call rfl hl hcall hs h⟩
          · refine Or.inr ⟨out ++ o2, ⟨t, List.mem_append_right _ ht, hte⟩, fun b => ?_⟩
            rw [List.cons_append, loopE_some hl, callStep_append hcall, hs, continE, show lx (cs ++ b) _ = _ from hcall.2 b,
              List.drop_append_of_le_length (Nat.le_of_lt hcall.1), h]

/-- The same without calls. -/
theorem runE_quiet (a : List Char) : ∀ {st : LexSt}, extCalls ext 0 st a = [] →
    (∃ out st', RunE ext true st a out st') ∨ ∃ out, (∃ t ∈ out, t.error ≠ none) ∧ ∀ b, loopE ext st (a ++ b) = out := by
  induction a with
  | nil => intro st _; exact Or.inl ⟨[], st, .nil st⟩
  | cons c cs ih =>
    intro st h
    cases hl : lookAt ext st c with
    | some lx => rw [extCalls, hl] at h; cases h
    | none =>
      rcases hs : lexStep st c with ⟨out, _ | st'⟩
      · exact Or.inr ⟨out, stop_step hs, fun b => by rw [List.cons_append, loopE_none hl, hs]; rfl⟩
      · rw [extCalls, hl] at h
        simp only [hs] at h
        rcases ih h with ⟨o2, st2, h⟩ | ⟨o2, ⟨t, ht, hte⟩, h⟩
        · exact Or.inl ⟨_, _, .step hl hs h⟩
        · exact Or.inr ⟨out ++ o2, ⟨t, List.mem_append_right _ ht, hte⟩, fun b => by rw [List.cons_append, loopE_none hl, hs, continE, h]⟩

theorem RunE.run {st st' : LexSt} {a : List Char} {out : List Tok} (h : RunE ext true st a out st') : lexRun st a = (out, some st') := by
  induction h with
  | nil st => rfl
  | step hl hs _ ih => rw [lexRun, hs]; simp only [ih]
  | call hq => cases hq

/-- The same some lines later. -/
theorem RunE.later (hsh : Shifts ext) (hx : ∀ s, ext ('#' :: s) = none) {n k : Int} (hk0 : 0 ≤ k) {q : Bool} {R : List Tok} {st2 st2' : LexSt} {a : List Char}
    {out : List Tok} (h : RunE ext q st2 a out st2') : ∀ {st1 : LexSt}, Reach st2 → st1.esc = st2.esc → st1.nextTokenIsDirective = st2.nextTokenIsDirective →
      Later n k st1 st2 (out ++ R) → (∀ t ∈ out, t.error = none) →
      ∃ st1', RunE ext q st1 a (out.map (laterTok n)) st1' ∧ st1'.esc = st2'.esc ∧ st1'.nextTokenIsDirective = st2'.nextTokenIsDirective ∧
        Later n k st1' st2' R := by
  induction h with
  | nil st => intro st1 _ he hd hk _; exact ⟨st1, .nil st1, he, hd, hk⟩
  | @step st s1 s2 c cs o o2 hl hs _ ih =>
    intro st1 hr he hd hk hn
    rw [List.append_assoc] at hk
    obtain ⟨st1', f1, f2, f3, f4⟩ := later_one hk0 hr he hd hk hs
    obtain ⟨st1'', g1, g2, g3, g4⟩ := ih (reach_step hr hs) f2 f3 f4 (fun t ht => hn t (List.mem_append_right _ ht))
    rw [List.map_append]
    exact ⟨st1'', .step ((lookAt_later he hd hk).trans hl) f1 g1, g2, g3, g4⟩
  | @call st s1 s2 c cs o o2 lx hq hl hc hs _ ih =>
    intro st1 hr he hd hk hn
    rw [List.append_assoc] at hk
    obtain ⟨f0, st1', f1, f2, f3, f4⟩ := later_call hk0 hsh hx hr he hd hk hl hs (fun t ht => hn t (List.mem_append_left _ ht))
    obtain ⟨st1'', g1, g2, g3, g4⟩ := ih (reach_call hr hl hs) f2 f3 f4 (fun t ht => hn t (List.mem_append_right _ ht))
    rw [List.map_append]
    refine ⟨st1'', .call hq ((lookAt_later he hd hk).trans hl) ?_ f1 (by rw [f0]; exact g1), g2, g3, g4⟩
    have hline : (bump st1 c).tokenLine = (bump st c).tokenLine + n := (bump_later hk c).line
    have hnr : ∀ t ∈ (lx cs (bump st c).tokenLine).1, t.error = none := by
      intro t ht
      refine hn t (List.mem_append_left _ ?_)
      unfold callStep at hs
      simp only at hs
      split at hs
      · cases hs; exact List.mem_cons_of_mem _ ht
      · simp only [Prod.mk.injEq] at hs
        rw [← hs.1]
        exact List.mem_append_left _ (List.mem_cons_of_mem _ ht)
    have hlx := (lookAt_some hl).2.2.2
    refine ⟨?_, fun b => ?_⟩
    · show (lx cs (bump st1 c).tokenLine).2 < cs.length
      rw [f0]; exact hc.1
    · have e := hc.2 b
      simp only at e
      show lx (cs ++ b) (bump st1 c).tokenLine = lx cs (bump st1 c).tokenLine
      rw [hline, hsh _ lx hlx cs _ n hnr, hsh _ lx hlx (cs ++ b) _ n (by rw [e]; exact hnr), e]

/-- The last character is not one at which an external lexer is called. -/
theorem RunE.last {q : Bool} {st st' : LexSt} {a : List Char} {out : List Tok} (h : RunE ext q st a out st') : ∀ {s' : List Char} {c : Char}, a = s' ++ [c] → Reach st →
    ∃ st0 pre o, Reach st0 ∧ lexStep st0 c = (o, some st') ∧ out = pre ++ o := by
  induction h with
  | nil st => intro s' c e; simp at e
  | @step st s1 s2 c cs o o2 hl hs hrun ih =>
    intro s' c' e hr
    cases s' with
    | nil =>
      rw [List.nil_append, List.cons.injEq] at e
      obtain ⟨rfl, rfl⟩ := e
      cases hrun
      exact ⟨st, [], o, hr, hs, by simp⟩
    | cons x s' =>
      rw [List.cons_append, List.cons.injEq] at e
      obtain ⟨st0, pre, o', h1, h2, h3⟩ := ih e.2 (reach_step hr hs)
      exact ⟨st0, o ++ pre, o', h1, h2, by rw [h3, List.append_assoc]⟩
  | @call st s1 s2 c cs o o2 lx hq hl hc hs _ ih =>
    intro s' c' e hr
    have h1 := hc.1
    simp only at h1
    rcases List.eq_nil_or_concat (cs.drop (lx cs (bump st c).tokenLine).2) with hd | ⟨cs', x, hd⟩
    · have := congrArg List.length hd
      simp only [List.length_drop, List.length_nil] at this
      omega
    · rw [List.concat_eq_append] at hd
      have : (c :: (cs.take (lx cs (bump st c).tokenLine).2 ++ cs')) ++ [x] = s' ++ [c'] := by
        rw [← e, List.cons_append, List.append_assoc, ← hd, List.take_append_drop]
      obtain ⟨-, hx⟩ := List.append_inj' this rfl
      obtain ⟨st0, pre, o', k1, k2, k3⟩ := ih (s' := cs') (c := c') (by rw [hd, hx]) (reach_call hr hl hs)
      exact ⟨st0, o ++ pre, o', k1, k2, by rw [k3, List.append_assoc]⟩

/-! ## Directive position after a mark -/

theorem dirAt_inWord {st st' : LexSt} {la : Str} {out : List Tok} (hs : st.lexState = .inWord) (ht : st.token ≠ c!";" ∧ st.token ≠ c!"{" ∧ st.token ≠ c!"}")
    (h : lexInWord st la = (out, some st')) (hsp : st'.lexState = .skipSpace) :
    ∃ o t, out = o ++ [t] ∧ (Mark t c!";" ∨ Mark t c!"{" ∨ Mark t c!"}" → st'.nextTokenIsDirective = true) := by
  unfold lexInWord at h
  split at h
  · cases h; simp at hsp
  · simp only at h
    split at h
    · cases h
      refine ⟨[], _, rfl, fun hm => ?_⟩
      rcases hm with hm | hm | hm
      · exact absurd hm.2 ht.1
      · exact absurd hm.2 ht.2.1
      · exact absurd hm.2 ht.2.2
    · split at h
      · cases h; simp at hsp
      · split at h
        · split at h <;> (cases h; simp [hs] at hsp)
        · split at h
          · rename_i hl
            rw [lexSpecial_eq _ hl] at h
            split at h
            · cases h
            · split at h
              · cases h
              · cases h
                exact ⟨_, _, rfl, fun _ => rfl⟩
          · cases h; simp [hs] at hsp

theorem dirAt_switch {st st' : LexSt} {la : Str} {out : List Tok} (hr : Reach st) (h : lexSwitch st la = (out, some st')) (hsp : st'.lexState = .skipSpace) :
    (out = [] ∧ st.lexState = .skipSpace ∧ st'.nextTokenIsDirective = st.nextTokenIsDirective) ∨
    ∃ o t, out = o ++ [t] ∧ (Mark t c!";" ∨ Mark t c!"{" ∨ Mark t c!"}" → st'.nextTokenIsDirective = true) := by
  unfold lexSwitch at h
  split at h
  · rename_i hs
    split at h
    · exact Or.inr (dirAt_inWord (st := { st with lexState := .inWord, newToken := true, tokenStartLine := st.tokenLine }) rfl
        (by show st.token ≠ _ ∧ st.token ≠ _ ∧ st.token ≠ _; rw [hr.space hs]; simp) h hsp)
    · cases h; exact Or.inl ⟨rfl, hs, rfl⟩
  · rename_i hs
    obtain ⟨⟨c, s, h1, -, h2, h3, h4⟩, -⟩ := hr.word (Or.inl hs)
    exact Or.inr (dirAt_inWord hs (by rw [h1]; simp [h2, h3, h4]) h hsp)
  · rename_i hs
    split at h
    · cases h
      obtain ⟨s, hc⟩ := hr.comment hs
      exact Or.inr ⟨[], _, rfl, fun hm => by rcases hm with hm | hm | hm <;> (have := hm.2; simp [LexSt.emitTok, hc] at this)⟩
    · cases h; simp [hs] at hsp
  · rename_i hs
    simp only at h
    split at h <;> (cases h; simp [hs] at hsp)
  · rename_i hs
    split at h
    · cases h
      exact Or.inr ⟨[], _, rfl, fun hm => by rcases hm with hm | hm | hm <;> (have := hm.1; simp [LexSt.emitTok] at this)⟩
    · cases h; simp [hs] at hsp

theorem dirAt_call {st st' : LexSt} {c : Char} {cs : List Char} {lx : ExtLexer} {out : List Tok} (hr : Reach st) (hl : lookAt ext st c = some lx)
    (h : callStep lx st c cs = (out, some st')) (hsp : st'.lexState = .skipSpace) :
    ∃ o t, out = o ++ [t] ∧ (Mark t c!";" ∨ Mark t c!"{" ∨ Mark t c!"}" → st'.nextTokenIsDirective = true) := by
  have hd : (bump st c).nextTokenIsDirective = true := by
    unfold lookAt at hl
    split at hl
    · cases hl
    · split at hl
      · rename_i h2; exact h2.2
      · cases hl
  have last : ∀ (t0 : Tok) (l : List Tok), ∃ o t, t0 :: l = o ++ [t] := by
    intro t0 l
    rcases List.eq_nil_or_concat (t0 :: l) with h | ⟨o, t, h⟩
    · cases h
    · exact ⟨o, t, by rw [h, List.concat_eq_append]⟩
  unfold callStep at h
  simp only at h
  split at h
  · cases h
    obtain ⟨o, t, e⟩ := last ⟨st.token, st.tokenStartLine, st.lexState == .inQuote, none⟩ (lx cs (bump st c).tokenLine).1
    exact ⟨o, t, e, fun _ => hd⟩
  · simp only [Prod.mk.injEq] at h
    obtain ⟨h1, h2⟩ := h
    generalize hw : lexSwitch (afterCall st c cs (lx cs (bump st c).tokenLine).2) (laText st c) = w at h1 h2
    obtain ⟨o0, s0⟩ := w
    simp only at h1 h2
    rw [h2] at hw
    rcases dirAt_switch (reach_afterCall hr c cs _) hw hsp with ⟨k1, -, k3⟩ | ⟨o, t, k1, k2⟩
    · obtain ⟨o, t, e⟩ := last ⟨st.token, st.tokenStartLine, st.lexState == .inQuote, none⟩ (lx cs (bump st c).tokenLine).1
      exact ⟨o, t, by rw [← h1, k1, List.append_nil, e], fun _ => k3.trans hd⟩
    · exact ⟨⟨st.token, st.tokenStartLine, st.lexState == .inQuote, none⟩ :: (lx cs (bump st c).tokenLine).1 ++ o, t, by
        rw [← h1, k1, ← List.append_assoc], k2⟩

theorem RunE.dirAt {q : Bool} {st st' : LexSt} {a : List Char} {out : List Tok} (h : RunE ext q st a out st') : Reach st → st'.lexState = .skipSpace →
    (out = [] ∧ st.lexState = .skipSpace ∧ (st.nextTokenIsDirective = true → st'.nextTokenIsDirective = true)) ∨
    ∃ o t, out = o ++ [t] ∧ (Mark t c!";" ∨ Mark t c!"{" ∨ Mark t c!"}" → st'.nextTokenIsDirective = true) := by
  induction h with
  | nil st => intro _ hsp; exact Or.inl ⟨rfl, hsp, id⟩
  | @step st s1 s2 c cs o o2 hl hs _ ih =>
    intro hr hsp
    rcases ih (reach_step hr hs) hsp with ⟨rfl, k2, k3⟩ | ⟨o', t, rfl, k2⟩
    · rw [List.append_nil]
      by_cases h1 : c = '\r'
      · rw [lexStep, if_pos h1] at hs; cases hs; exact Or.inl ⟨rfl, k2, k3⟩
      · by_cases h2 : c = '\\' ∧ st.esc = false
        · rw [lexStep, if_neg h1, if_pos h2] at hs; cases hs
          exact Or.inl ⟨rfl, k2, k3⟩
        · rw [lexStep, if_neg h1, if_neg h2] at hs
          rcases dirAt_switch (reach_bump hr c false) hs k2 with ⟨j1, j2, j3⟩ | ⟨o', t, j1, j2⟩
          · refine Or.inl ⟨j1, ?_, fun hd => k3 (j3.trans ?_)⟩
            · rw [← j2]; unfold bump; split <;> rfl
            · show (bump st c).nextTokenIsDirective = true
              rw [bump_dir, hd]; simp
          · exact Or.inr ⟨o', t, j1, fun hm => k3 (j2 hm)⟩
    · exact Or.inr ⟨o ++ o', t, by rw [List.append_assoc], k2⟩
  | @call st s1 s2 c cs o o2 lx hq hl hc hs _ ih =>
    intro hr hsp
    rcases ih (reach_call hr hl hs) hsp with ⟨rfl, k2, k3⟩ | ⟨o', t, rfl, k2⟩
    · rw [List.append_nil]
      obtain ⟨o', t, j1, j2⟩ := dirAt_call hr hl hs k2
      exact Or.inr ⟨o', t, j1, fun hm => k3 (j2 hm)⟩
    · exact Or.inr ⟨o ++ o', t, by rw [List.append_assoc], k2⟩

/-! ## The state after lines -/

/-- After a text that ends where a statement may begin, the lexer is between tokens, and the next token is in directive position. -/
theorem boundary_stateE {q : Bool} {a : Str} (ha : Boundary (lexWith ext) a) {out : List Tok} {st' : LexSt} (hrun : RunE ext q {} a out st')
    (hout : ∀ t ∈ out, t.error = none) :
    st'.lexState = .skipSpace ∧ st'.esc = false ∧ st'.nextTokenIsDirective = true ∧ (lexWith ext a).filter (·.error == none) = out := by
  have hfo : out.filter (·.error == none) = out := List.filter_eq_self.mpr fun t ht => by rw [hout t ht]; rfl
  have e := hrun.lex
  have hr : Reach st' := hrun.reach reach_init
  suffices hsuff : st'.lexState = .skipSpace ∧ st'.esc = false ∧ ((lexWith ext a).filter (·.error == none) = out → st'.nextTokenIsDirective = true) by
    have h3 : (lexWith ext a).filter (·.error == none) = out := by rw [e, List.filter_append, lexFinish_space hr hsuff.1, hfo, List.append_nil]
    exact ⟨hsuff.1, hsuff.2.1, hsuff.2.2 h3, h3⟩
  -- the token that is not finished
  have hopen : st'.token ≠ [] → ∃ t, (lexWith ext a).filter (·.error == none) = out ++ [t] ∧ t.quoted = (st'.lexState == .inQuote) ∧ t.value = st'.token := by
    intro h
    exact ⟨_, by rw [e, List.filter_append, lexFinish_other h, hfo], rfl, rfl⟩
  have hword : st'.lexState = .inWord ∨ st'.lexState = .inVar → ∃ t, (lexWith ext a).filter (·.error == none) = out ++ [t] ∧ WordTok t := by
    intro hl
    obtain ⟨⟨c, s, h, h1, h2, h3, h4⟩, -⟩ := hr.word hl
    obtain ⟨t, k1, k2, k3⟩ := hopen (by simp [h])
    refine ⟨t, k1, ?_⟩
    rw [h] at k3
    refine ⟨fun _ h => ?_, fun h => ?_, fun h => ?_, fun h => ?_⟩ <;> (have := h.2; rw [k3] at this; simp_all)
  have hquote : st'.lexState = .inQuote → st'.token ≠ [] → ∃ t, (lexWith ext a).filter (·.error == none) = out ++ [t] ∧ WordTok t := by
    intro hl hne
    obtain ⟨t, k1, k2, -⟩ := hopen hne
    refine ⟨t, k1, ?_⟩
    rw [hl] at k2
    refine ⟨fun _ h => ?_, fun h => ?_, fun h => ?_, fun h => ?_⟩ <;> (rw [h.1] at k2; cases k2)
  rcases ha with ⟨ha, hat⟩ | ⟨⟨T, m, hm, hmark⟩, s', c, rfl, hc⟩
  · have hno : ∀ o t, (lexWith ext a).filter (·.error == none) = o ++ [t] → ¬ WordTok t := by
      intro o t e hw
      rcases hat o t [] e (by simp) with ⟨_, h⟩ | h | h | h
      · exact hw.1 _ h
      · exact hw.2.2.2 h
      · exact hw.2.1 h
      · exact hw.2.2.1 h
    rcases ha with rfl | ⟨s', rfl⟩
    · cases hrun; exact ⟨rfl, rfl, fun _ => rfl⟩
    obtain ⟨st0, pre, out2, hr0, hstep, ho⟩ := hrun.last rfl reach_init
    obtain ⟨hesc, hnc, hnq⟩ := nl_step hr0 hstep
    have hsp : st'.lexState = .skipSpace := by
      cases hl : st'.lexState with
      | skipSpace => rfl
      | inComment => exact absurd hl hnc
      | inQuote => obtain ⟨t, k1, k2⟩ := hquote hl (hnq hl); exact absurd k2 (hno _ t k1)
      | inWord => obtain ⟨t, k1, k2⟩ := hword (Or.inl hl); exact absurd k2 (hno _ t k1)
      | inVar => obtain ⟨t, k1, k2⟩ := hword (Or.inr hl); exact absurd k2 (hno _ t k1)
    refine ⟨hsp, hesc, fun h3 => ?_⟩
    rcases nl_dir hr0 hstep hsp with k | ⟨t, k, kt⟩
    · exact k
    · rw [ho, k] at h3
      exact absurd kt (hno _ t h3)
  · have hno : ∀ t, (lexWith ext (s' ++ [c])).filter (·.error == none) = out ++ [t] → t = m := by
      intro t e'
      rw [hm] at e'
      obtain ⟨-, k⟩ := List.append_inj' e' rfl
      simpa using k.symm
    obtain ⟨st0, pre, out2, hr0, hstep, ho⟩ := hrun.last rfl reach_init
    obtain ⟨hesc, hnq⟩ := end_step hr0 hc hstep
    have hsp : st'.lexState = .skipSpace := by
      cases hl : st'.lexState with
      | skipSpace => rfl
      | inComment =>
        obtain ⟨s, hcm⟩ := hr.comment hl
        obtain ⟨t, k1, k2, k3⟩ := hopen (by simp [hcm])
        refine absurd (?_ : CommentTok m s) (mark_not_comment hmark)
        rw [← hno t k1]
        exact ⟨by rw [k2, hl]; rfl, by rw [k3, hcm]⟩
      | inQuote => obtain ⟨t, k1, k2⟩ := hquote hl (hnq hl); rw [hno t k1] at k2; exact absurd k2 (mark_not_word hmark)
      | inWord => obtain ⟨t, k1, k2⟩ := hword (Or.inl hl); rw [hno t k1] at k2; exact absurd k2 (mark_not_word hmark)
      | inVar => obtain ⟨t, k1, k2⟩ := hword (Or.inr hl); rw [hno t k1] at k2; exact absurd k2 (mark_not_word hmark)
    refine ⟨hsp, hesc, fun h3 => ?_⟩
    rcases hrun.dirAt reach_init hsp with ⟨k1, -, k3⟩ | ⟨o, t, k1, k2⟩
    · exact k3 rfl
    · rw [h3, k1] at hm
      obtain ⟨-, k⟩ := List.append_inj' hm rfl
      have : t = m := by simpa using k
      exact k2 (this ▸ hmark)

theorem Spec.Boundary.atE {a : Str} (h : Boundary (lexWith ext) a) : AtStatement ((lexWith ext a).filter (·.error == none)) := by
  rcases h with h | ⟨⟨T, m, hm, hmark⟩, -⟩
  · exact h.2
  · rw [hm]; exact at_mark hmark T

/-! ## Replacing lines -/

/-- After the text the lexer is between tokens. -/
def BetweenE (ext : ExtLexers) (q : Bool) (s : Str) : Prop :=
  ∃ st, RunE ext q {} s (lexWith ext s) st ∧ st.lexState = .skipSpace ∧ st.esc = false ∧ st.nextTokenIsDirective = true ∧ st.depth = 0

theorem depth_of {q : Bool} {s : Str} {st : LexSt} (h : RunE ext q {} s (lexWith ext s) st) (hsp : st.lexState = .skipSpace) : st.depth = 0 := by
  have hr : Reach st := h.reach reach_init
  have h4 := hr.depth
  by_contra hne
  have hfin : lexFinish st = [] := (List.append_cancel_left (as := lexWith ext s) (bs := []) (by rw [List.append_nil]; exact h.lex)).symm
  unfold lexFinish at hfin
  simp only [hr.space hsp, List.length_nil, gt_iff_lt, lt_self_iff_false, if_false, List.nil_append] at hfin
  rw [if_pos (by omega)] at hfin
  cases hfin

theorem betweenE {q : Bool} {s : Str} (h : Boundary (lexWith ext) s) (he : ∀ t ∈ lexWith ext s, t.error = none) {out : List Tok} {st : LexSt} (hrun : RunE ext q {} s out st) :
    BetweenE ext q s := by
  obtain ⟨f1, f2, f3, f4⟩ := boundary_stateE h hrun fun t ht => he t (by rw [hrun.lex]; exact List.mem_append_left _ ht)
  rw [List.filter_eq_self.mpr fun t ht => by rw [he t ht]; rfl] at f4
  subst f4
  exact ⟨st, hrun, f1, f2, f3, depth_of hrun f1⟩

theorem Spec.Boundary.betweenE {s : Str} (h : Boundary (lexWith ext) s) (he : ∀ t ∈ lexWith ext s, t.error = none)
    (hc : ∀ call ∈ extCalls ext 0 {} s, EndsBefore call) : BetweenE ext false s := by
  rcases runE_or s.length s (Nat.le_refl _) reach_init hc with ⟨out, st, hrun⟩ | ⟨out, ⟨t, ht, hte⟩, h⟩
  · exact Verif.betweenE h he hrun
  · refine absurd (he t ?_) hte
    have := h []
    rw [List.append_nil] at this
    show t ∈ loopE ext {} s
    rw [this]; exact ht

theorem Spec.Boundary.quietE {s : Str} (h : Boundary (lexWith ext) s) (he : ∀ t ∈ lexWith ext s, t.error = none)
    (hc : extCalls ext 0 {} s = []) : BetweenE ext true s := by
  rcases runE_quiet s hc with ⟨out, st, hrun⟩ | ⟨out, ⟨t, ht, hte⟩, h⟩
  · exact Verif.betweenE h he hrun
  · refine absurd (he t ?_) hte
    have := h []
    rw [List.append_nil] at this
    show t ∈ loopE ext {} s
    rw [this]; exact ht

/-- Statements in the midst of a text. -/
theorem lines_runE (hsh : Shifts ext) (hx : ∀ s, ext ('#' :: s) = none) {q : Bool} {s : Str} (hs : BetweenE ext q s) (he : ∀ t ∈ lexWith ext s, t.error = none)
    (hshape : Shape (lexWith ext s)) {st : LexSt} (hr : Reach st) (hsp : st.lexState = .skipSpace) (hesc : st.esc = false) (hdir : st.nextTokenIsDirective = true) :
    ∃ st', RunE ext q st s ((lexWith ext s).map (laterTok (st.tokenLine - 1))) st' ∧ st'.lexState = .skipSpace ∧ st'.esc = false ∧
      st'.nextTokenIsDirective = true ∧ st'.depth = st.depth ∧ (q = true → (∃ T m, lexWith ext s = T ++ [m] ∧ Mark m c!";") → st'.dupSpecialChar = true) := by
  have hk : Later (st.tokenLine - 1) st.depth st {} (lexWith ext s ++ []) :=
    ⟨hsp, hr.space hsp, by simp, by simp, by simp, by simp, by simp, Or.inr ⟨Or.inl rfl, by rw [List.append_nil]; exact hshape.starts⟩⟩
  obtain ⟨st2, f, f1, f2, f3, f4⟩ := hs
  obtain ⟨st1, g1, g2, g3, g4⟩ := f.later hsh hx hr.depth reach_init (by rw [hesc]) (by rw [hdir]) hk he
  refine ⟨st1, g1, g4.state.trans f1, g2.trans f2, g3.trans f3, by rw [g4.depth, f4]; simp, ?_⟩
  rintro rfl ⟨T, m, hT, hm⟩
  rcases dup_run s hr g1.run (g4.state.trans f1) with ⟨k1, -, -⟩ | ⟨o, t, k1, k2⟩
  · rw [hT] at k1; simp at k1
  · rw [hT, List.map_append] at k1
    obtain ⟨-, k3⟩ := List.append_inj' k1 rfl
    refine k2 ?_
    have : t = laterTok (st.tokenLine - 1) m := by simpa using k3.symm
    rw [this]
    exact hm

/-- Statements, then statements. -/
theorem lex_bothE (hsh : Shifts ext) (hx : ∀ s, ext ('#' :: s) = none) {a b : Str} (ha : BetweenE ext false a)
    (hb : BetweenE ext false b) (hbe : ∀ t ∈ lexWith ext b, t.error = none) (hbs : Shape (lexWith ext b)) :
    (∃ n, lexWith ext (a ++ b) = lexWith ext a ++ (lexWith ext b).map (laterTok n)) ∧ BetweenE ext false (a ++ b) := by
  obtain ⟨st, h1, h2, h3, h4, h5⟩ := ha
  obtain ⟨st', k1, k2, k3, k4, k5, -⟩ := lines_runE hsh hx hb hbe hbs (h1.reach reach_init) h2 h3 h4
  have hrun := h1.append k1
  have hr' : Reach st' := hrun.reach reach_init
  have e : lexWith ext (a ++ b) = lexWith ext a ++ (lexWith ext b).map (laterTok (st.tokenLine - 1)) := by
    rw [hrun.lex]
    have : lexFinish st' = [] := by
      unfold lexFinish
      simp [hr'.space k2, k5, h5]
    rw [this, List.append_nil]
  exact ⟨⟨_, e⟩, st', by rw [e]; exact hrun, k2, k3, k4, k5.trans h5⟩

/-- The tokens of a text in which statements are replaced by others. -/
theorem lex_replaceE (hsh : Shifts ext) (hx : ∀ s, ext ('#' :: s) = none) {pre s b post : Str} (hpre : Boundary (lexWith ext) pre)
    (hpc : ∀ call ∈ extCalls ext 0 {} pre, EndsBefore call) (hs : BetweenE ext true s) (hse : ∀ t ∈ lexWith ext s, t.error = none)
    (hss : Shape (lexWith ext s)) (hsm : ∃ T m, lexWith ext s = T ++ [m] ∧ Mark m c!";") (hb : BetweenE ext false b) (hbe : ∀ t ∈ lexWith ext b, t.error = none)
    (hbs : Shape (lexWith ext b)) (he : ∀ t ∈ lexWith ext (pre ++ (s ++ post)), t.error = none) :
    ∃ T1 T2 p n, AtStatement T1 ∧ lexWith ext (pre ++ (s ++ post)) = T1 ++ ((lexWith ext s).map (laterTok p) ++ T2) ∧
      lexWith ext (pre ++ (b ++ post)) = T1 ++ ((lexWith ext b).map (laterTok p) ++ T2.map (laterTok n)) := by
  rcases runE_or pre.length pre (Nat.le_refl _) reach_init hpc with ⟨out, st, hrun⟩ | ⟨out, ⟨t, ht, hte⟩, h⟩
  swap
  · refine absurd (he t ?_) hte
    show t ∈ loopE ext {} (pre ++ (s ++ post))
    rw [h]; exact ht
  have hr : Reach st := hrun.reach reach_init
  have hloop : ∀ c, lexWith ext (pre ++ c) = out ++ loopE ext st c := hrun.loop
  have hout : ∀ t ∈ out, t.error = none := by
    intro t ht
    refine he t ?_
    rw [hloop]
    exact List.mem_append_left _ ht
  obtain ⟨f1, f2, f3, f4⟩ := boundary_stateE hpre hrun hout
  obtain ⟨st2, a1, a2, a3, a4, a5, a6⟩ := lines_runE hsh hx hs hse hss hr f1 f2 f3
  obtain ⟨st1, b1, b2, b3, b4, b5, -⟩ := lines_runE hsh hx hb hbe hbs hr f1 f2 f3
  have e2 : lexWith ext (pre ++ (s ++ post)) = out ++ ((lexWith ext s).map (laterTok (st.tokenLine - 1)) ++ loopE ext st2 post) := by rw [hloop, a1.loop]
  have e1 : lexWith ext (pre ++ (b ++ post)) = out ++ ((lexWith ext b).map (laterTok (st.tokenLine - 1)) ++ loopE ext st1 post) := by rw [hloop, b1.loop]
  have hr2 : Reach st2 := a1.reach hr
  have hr1 : Reach st1 := b1.reach hr
  have hl : loopE ext st1 post = (loopE ext st2 post).map (laterTok (st1.tokenLine - st2.tokenLine)) := by
    refine laterE_loop hsh hx post.length post (Nat.le_refl _) hr2 (b3.trans a3.symm) (b4.trans a4.symm) ⟨b2.trans a2.symm, (hr1.space b2).trans (hr2.space a2).symm,
      by rw [b5, a5]; simp, by omega, fun h => absurd a2 h, by simp [a2], by simp [a2], Or.inl fun _ => a6 rfl hsm⟩ ?_
    intro t ht
    refine he t ?_
    rw [e2]
    exact List.mem_append_right _ (List.mem_append_right _ ht)
  exact ⟨out, loopE ext st2 post, _, _, by rw [← f4]; exact hpre.atE, e2, by rw [e1, hl]⟩

end Verif
