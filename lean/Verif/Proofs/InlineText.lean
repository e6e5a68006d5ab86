import Verif.Proofs.Inline
/-!
# The tokens of a text in which lines are replaced
-/
namespace Verif
open Spec

/-! ## The state after lines -/

theorem lex_run {a : Str} {out : List Tok} {st : LexSt} (h : lexRun {} a = (out, some st)) : lex a = out ++ lexFinish st := by
  rw [lex_eq_loop, ← List.append_nil a, loop_append, h]
  simp [contin, loop_nil]

theorem lexFinish_space {st : LexSt} (hr : Reach st) (h : st.lexState = .skipSpace) : (lexFinish st).filter (·.error == none) = [] := by
  unfold lexFinish
  simp only [hr.space h, List.length_nil, gt_iff_lt, lt_self_iff_false, if_false, List.nil_append]
  split <;> simp [LexSt.emitTok]

theorem lexFinish_other {st : LexSt} (h : st.token ≠ []) :
    (lexFinish st).filter (·.error == none) = [st.emitTok st.tokenStartLine (st.lexState == .inQuote) none] := by
  unfold lexFinish
  have hl : st.token.length > 0 := List.length_pos_iff.mpr h
  simp only [if_pos hl]
  split <;> simp [LexSt.emitTok]

/-- The state after a character that is not a quote. -/
theorem end_step {st st' : LexSt} {c : Char} {out : List Tok} (hr : Reach st) (hc : c ≠ '"' ∧ c ≠ '\'' ∧ c ≠ '\\' ∧ c ≠ '\r')
    (h : lexStep st c = (out, some st')) : st'.esc = false ∧ (st'.lexState = .inQuote → st'.token ≠ []) := by
  obtain ⟨u, hu, hc', -, e⟩ := lexStep_unit st c hc.2.2.2 (by simp [hc.2.2.1])
  rw [e] at h
  have hr' := reach_bump hr c false
  refine ⟨(esc_switch h).1, ?_⟩
  generalize { bump st c with esc := false } = st0 at h hr'
  have hne : u.text ≠ ['"'] ∧ u.text ≠ ['\''] := by
    cases u <;> (simp only [U.char] at hc'; subst hc'; simp [U.text, hc.1, hc.2.1])
  have key : ∀ st1 : LexSt, st1.lexState = .inWord → lexInWord st1 u.text = (out, some st') → (st'.lexState = .inQuote → st'.token ≠ []) := by
    intro st1 h1 h
    unfold lexInWord at h
    split at h
    · cases h; simp
    · simp only at h
      split at h
      · cases h; simp [LexSt.reset]
      · split at h
        · cases h; simp
        · rw [if_neg (by simp [hne.1, hne.2])] at h
          split at h
          · rename_i hl
            rw [lexSpecial_eq _ hl] at h
            split at h
            · cases h
            · split at h
              · cases h
              · cases h; simp
          · cases h
            simp [h1]
  unfold lexSwitch at h
  split at h
  · rename_i hs
    split at h
    · exact key _ rfl h
    · cases h
      simp [hs]
  · rename_i hs
    exact key _ hs h
  · rename_i hs
    split at h
    · cases h; simp [LexSt.reset]
    · cases h; simp [hs]
  · rename_i hs
    simp only at h
    split at h <;> (cases h; simp [hs])
  · rename_i hs
    split at h
    · cases h; simp [LexSt.reset]
    · cases h
      refine fun _ => ?_
      have hq := hr'.quote hs
      split
      · rcases hq with hq | hq <;> simp [hq]
      · have := text_ne_nil u
        simp [this]

theorem run_last {s' : Str} {c : Char} {out : List Tok} {st st' : LexSt} (hr : Reach st) (h : lexRun st (s' ++ [c]) = (out, some st')) :
    ∃ st0 out2, Reach st0 ∧ lexStep st0 c = (out2, some st') := by
  rw [lexRun_append] at h
  rcases h1 : lexRun st s' with ⟨o1, _ | st0⟩
  · rw [h1] at h; cases h
  · rw [h1] at h
    refine ⟨st0, (lexStep st0 c).1, reach_run hr h1, ?_⟩
    simp only [lexRun] at h
    rcases h2 : lexStep st0 c with ⟨o2, _ | st2⟩
    · rw [h2] at h; simp at h
    · rw [h2] at h; simp at h
      rw [h.2]

/-- After a text that ends where a statement may begin, the lexer is between tokens. -/
theorem boundary_state {a : Str} (ha : Boundary lex a) {out : List Tok} {st' : LexSt} (hrun : lexRun {} a = (out, some st')) (hout : ∀ t ∈ out, t.error = none) :
    st'.lexState = .skipSpace ∧ st'.esc = false ∧ (lex a).filter (·.error == none) = out := by
  have hfo : out.filter (·.error == none) = out := List.filter_eq_self.mpr fun t ht => by rw [hout t ht]; rfl
  have e := lex_run hrun
  have hr : Reach st' := reach_run reach_init hrun
  suffices hsuff : st'.lexState = .skipSpace ∧ st'.esc = false from
    ⟨hsuff.1, hsuff.2, by rw [e, List.filter_append, lexFinish_space hr hsuff.1, hfo, List.append_nil]⟩
  -- the token that is not finished
  have hopen : st'.token ≠ [] → ∃ t, (lex a).filter (·.error == none) = out ++ [t] ∧ t.quoted = (st'.lexState == .inQuote) ∧ t.value = st'.token := by
    intro h
    exact ⟨_, by rw [e, List.filter_append, lexFinish_other h, hfo], rfl, rfl⟩
  have hword : st'.lexState = .inWord ∨ st'.lexState = .inVar → ∃ t, (lex a).filter (·.error == none) = out ++ [t] ∧ WordTok t := by
    intro hl
    obtain ⟨⟨c, s, h, h1, h2, h3, h4⟩, -⟩ := hr.word hl
    obtain ⟨t, k1, k2, k3⟩ := hopen (by simp [h])
    refine ⟨t, k1, ?_⟩
    rw [h] at k3
    refine ⟨fun _ h => ?_, fun h => ?_, fun h => ?_, fun h => ?_⟩ <;> (have := h.2; rw [k3] at this; simp_all)
  have hquote : st'.lexState = .inQuote → st'.token ≠ [] → ∃ t, (lex a).filter (·.error == none) = out ++ [t] ∧ WordTok t := by
    intro hl hne
    obtain ⟨t, k1, k2, -⟩ := hopen hne
    refine ⟨t, k1, ?_⟩
    rw [hl] at k2
    refine ⟨fun _ h => ?_, fun h => ?_, fun h => ?_, fun h => ?_⟩ <;> (rw [h.1] at k2; cases k2)
  rcases ha with ⟨ha, hat⟩ | ⟨⟨T, m, hm, hmark⟩, s', c, rfl, hc⟩
  · have hno : ∀ t, (lex a).filter (·.error == none) = out ++ [t] → ¬ WordTok t := by
      intro t e hw
      rcases hat out t [] e (by simp) with ⟨_, h⟩ | h | h | h
      · exact hw.1 _ h
      · exact hw.2.2.2 h
      · exact hw.2.1 h
      · exact hw.2.2.1 h
    rcases ha with rfl | ⟨s', rfl⟩
    · cases hrun; exact ⟨rfl, rfl⟩
    obtain ⟨st0, out2, hr0, hstep⟩ := run_last reach_init hrun
    obtain ⟨hesc, hnc, hnq⟩ := nl_step hr0 hstep
    refine ⟨?_, hesc⟩
    cases hl : st'.lexState with
    | skipSpace => rfl
    | inComment => exact absurd hl hnc
    | inQuote => obtain ⟨t, k1, k2⟩ := hquote hl (hnq hl); exact absurd k2 (hno t k1)
    | inWord => obtain ⟨t, k1, k2⟩ := hword (Or.inl hl); exact absurd k2 (hno t k1)
    | inVar => obtain ⟨t, k1, k2⟩ := hword (Or.inr hl); exact absurd k2 (hno t k1)
  · have hno : ∀ t, (lex (s' ++ [c])).filter (·.error == none) = out ++ [t] → t = m := by
      intro t e'
      rw [hm] at e'
      obtain ⟨-, k⟩ := List.append_inj' e' rfl
      simpa using k.symm
    obtain ⟨st0, out2, hr0, hstep⟩ := run_last reach_init hrun
    obtain ⟨hesc, hnq⟩ := end_step hr0 hc hstep
    refine ⟨?_, hesc⟩
    cases hl : st'.lexState with
    | skipSpace => rfl
    | inComment =>
      obtain ⟨s, hcm⟩ := hr.comment hl
      obtain ⟨t, k1, k2, k3⟩ := hopen (by simp [hcm])
      refine absurd (?_ : CommentTok m s) (mark_not_comment hmark)
      rw [← hno t k1]
      exact ⟨by rw [k2, hl]; rfl, by rw [k3, hcm]⟩
    | inQuote => obtain ⟨t, k1, k2⟩ := hquote hl (hnq hl); rw [hno t k1] at k2; exact absurd k2 (mark_not_word hmark)
    | inWord => obtain ⟨t, k1, k2⟩ := hword (Or.inl hl); rw [hno t k1] at k2; exact absurd k2 (mark_not_word hmark)
    | inVar => obtain ⟨t, k1, k2⟩ := hword (Or.inr hl); rw [hno t k1] at k2; exact absurd k2 (mark_not_word hmark)

theorem Spec.Boundary.at {a : Str} (h : Boundary lex a) : AtStatement ((lex a).filter (·.error == none)) := by
  rcases h with h | ⟨⟨T, m, hm, hmark⟩, -⟩
  · exact h.2
  · rw [hm]; exact at_mark hmark T

/-! ## After a semicolon, no special character is allowed -/

theorem dup_special {st st' : LexSt} {la : Str} {out : List Tok} (hl : isSpecial la = true) (h : lexSpecial st la = (out, some st')) :
    ∃ o t, out = o ++ [t] ∧ (Mark t c!";" → st'.dupSpecialChar = true) := by
  rw [lexSpecial_eq st hl] at h
  split at h
  · cases h
  · split at h
    · cases h
    · cases h
      exact ⟨_, _, rfl, fun _ => rfl⟩

theorem dup_inWord {st st' : LexSt} {la : Str} {out : List Tok} (hs : st.lexState = .inWord) (ht : st.token ≠ c!";") (h : lexInWord st la = (out, some st'))
    (hsp : st'.lexState = .skipSpace) : ∃ o t, out = o ++ [t] ∧ (Mark t c!";" → st'.dupSpecialChar = true) := by
  unfold lexInWord at h
  split at h
  · cases h; simp at hsp
  · simp only at h
    split at h
    · cases h
      exact ⟨[], _, rfl, fun hm => absurd hm.2 ht⟩
    · split at h
      · cases h; simp at hsp
      · split at h
        · split at h <;> (cases h; simp [hs] at hsp)
        · split at h
          · rename_i hl
            exact dup_special hl h
          · cases h; simp [hs] at hsp

theorem dup_switch {st st' : LexSt} {la : Str} {out : List Tok} (hr : Reach st) (h : lexSwitch st la = (out, some st')) (hsp : st'.lexState = .skipSpace) :
    (out = [] ∧ st.lexState = .skipSpace ∧ st'.dupSpecialChar = st.dupSpecialChar) ∨ ∃ o t, out = o ++ [t] ∧ (Mark t c!";" → st'.dupSpecialChar = true) := by
  unfold lexSwitch at h
  split at h
  · rename_i hs
    split at h
    · exact Or.inr (dup_inWord (st := { st with lexState := .inWord, newToken := true, tokenStartLine := st.tokenLine }) rfl
        (by show st.token ≠ _; rw [hr.space hs]; simp) h hsp)
    · cases h; exact Or.inl ⟨rfl, hs, rfl⟩
  · rename_i hs
    obtain ⟨⟨c, s, h1, -, -, -, h2⟩, -⟩ := hr.word (Or.inl hs)
    exact Or.inr (dup_inWord hs (by rw [h1]; simp [h2]) h hsp)
  · rename_i hs
    split at h
    · cases h
      obtain ⟨s, hc⟩ := hr.comment hs
      exact Or.inr ⟨[], _, rfl, fun hm => by have := hm.2; simp [LexSt.emitTok, hc] at this⟩
    · cases h; simp [hs] at hsp
  · rename_i hs
    simp only at h
    split at h <;> (cases h; simp [hs] at hsp)
  · rename_i hs
    split at h
    · cases h
      exact Or.inr ⟨[], _, rfl, fun hm => by have := hm.1; simp [LexSt.emitTok] at this⟩
    · cases h; simp [hs] at hsp

theorem dup_run : ∀ (s : List Char) {st st' : LexSt} {out : List Tok}, Reach st → lexRun st s = (out, some st') → st'.lexState = .skipSpace →
    (out = [] ∧ st.lexState = .skipSpace ∧ st'.dupSpecialChar = st.dupSpecialChar) ∨ ∃ o t, out = o ++ [t] ∧ (Mark t c!";" → st'.dupSpecialChar = true) := by
  intro s
  induction s with
  | nil => intro st st' out hr h hsp; cases h; exact Or.inl ⟨rfl, hsp, rfl⟩
  | cons c s ih =>
    intro st st' out hr h hsp
    rw [lexRun] at h
    rcases hs : lexStep st c with ⟨o1, _ | st1⟩
    · rw [hs] at h; cases h
    · rw [hs] at h
      simp only [Prod.mk.injEq] at h
      have hr1 := reach_step hr hs
      rcases ih (out := (lexRun st1 s).1) hr1 (Prod.ext rfl h.2) hsp with ⟨k1, k2, k3⟩ | ⟨o, t, k1, k2⟩
      · rw [k1, List.append_nil] at h
        rw [k3, ← h.1]
        by_cases h1 : c = '\r'
        · rw [lexStep, if_pos h1] at hs; cases hs; exact Or.inl ⟨rfl, k2, rfl⟩
        · by_cases h2 : c = '\\' ∧ st.esc = false
          · rw [lexStep, if_neg h1, if_pos h2] at hs; cases hs
            exact Or.inl ⟨rfl, k2, rfl⟩
          · rw [lexStep, if_neg h1, if_neg h2] at hs
            have hb := reach_bump hr c false
            rcases dup_switch hb hs k2 with ⟨j1, j2, j3⟩ | j
            · refine Or.inl ⟨j1, ?_, j3.trans ?_⟩
              · rw [← j2]; unfold bump; split <;> rfl
              · unfold bump; split <;> rfl
            · exact Or.inr j
      · exact Or.inr ⟨o1 ++ o, t, by rw [← h.1, k1, List.append_assoc], k2⟩

/-! ## Replacing lines -/

/-- After the text the lexer is between tokens. -/
def Between (s : Str) : Prop := ∃ st, lexRun {} s = ((lex s).filter (·.error == none), some st) ∧ st.lexState = .skipSpace ∧ st.esc = false

theorem Spec.Boundary.between {s : Str} (h : Boundary lex s) (he : ∀ t ∈ lex s, t.error = none) : Between s := by
  rcases hrun : lexRun {} s with ⟨out, _ | st⟩
  · obtain ⟨t, ht, hte⟩ := stop_run hrun
    refine absurd (he t ?_) hte
    rw [lex_eq_loop, ← List.append_nil s, loop_append, hrun]
    exact ht
  · obtain ⟨f1, f2, f3⟩ := boundary_state h hrun fun t ht => he t (by rw [lex_run hrun]; exact List.mem_append_left _ ht)
    exact ⟨st, by rw [hrun, f3], f1, f2⟩

/-- Statements in the midst of a text. -/
theorem lines_run {s : Str} (hs : Between s) (he : ∀ t ∈ lex s, t.error = none) (hsh : Shape (lex s)) {st : LexSt} (hr : Reach st)
    (hsp : st.lexState = .skipSpace) (hesc : st.esc = false) :
    ∃ st', lexRun st s = ((lex s).map (laterTok (st.tokenLine - 1)), some st') ∧ st'.lexState = .skipSpace ∧ st'.esc = false ∧ st'.depth = st.depth ∧
      ((∃ T m, lex s = T ++ [m] ∧ Mark m c!";") → st'.dupSpecialChar = true) := by
  have hk : Later (st.tokenLine - 1) st.depth st {} (loop {} s) :=
    ⟨hsp, hr.space hsp, by simp, by simp, by simp, by simp, by simp, Or.inr ⟨Or.inl rfl, by rw [← lex_eq_loop]; exact hsh.starts⟩⟩
  obtain ⟨out, st1, st2, g2, g1, g3, g4⟩ := later_run hr.depth s reach_init (by rw [hesc]) hk (by rw [← lex_eq_loop]; exact he)
  have hr2 : Reach st2 := reach_run reach_init g2
  have hfl : (lex s).filter (·.error == none) = lex s := List.filter_eq_self.mpr fun t ht => by rw [he t ht]; rfl
  obtain ⟨st2', f, f1, f2⟩ := hs
  rw [g2, hfl, Prod.mk.injEq, Option.some.injEq] at f
  obtain ⟨f3, rfl⟩ := f
  have f3 := f3.symm
  have hd : st2.depth = 0 := by
    have h1 := hr2.depth
    by_contra hne
    have h2 : st2.depth > 0 := by omega
    have hfin : lexFinish st2 = [] := by
      have := lex_run g2
      rw [f3] at this
      exact (List.append_cancel_left (as := out) (bs := []) (by rw [List.append_nil]; exact this)).symm
    unfold lexFinish at hfin
    simp only [hr2.space f1, List.length_nil, gt_iff_lt, lt_self_iff_false, if_false, List.nil_append] at hfin
    rw [if_pos h2] at hfin
    cases hfin
  refine ⟨st1, by rw [f3]; exact g1, g4.state.trans f1, g3.trans f2, by rw [g4.depth, hd]; simp, ?_⟩
  rintro ⟨T, m, hT, hm⟩
  rcases dup_run s hr g1 (g4.state.trans f1) with ⟨k1, -, -⟩ | ⟨o, t, k1, k2⟩
  · rw [← f3, hT] at k1; simp at k1
  · rw [← f3, hT, List.map_append] at k1
    obtain ⟨-, k3⟩ := List.append_inj' k1 rfl
    refine k2 ?_
    have : t = laterTok (st.tokenLine - 1) m := by simpa using k3.symm
    rw [this]
    exact hm

/-- Statements, then statements. -/
theorem lex_both {a b : Str} (ha : Between a) (hae : ∀ t ∈ lex a, t.error = none) (hb : Between b) (hbe : ∀ t ∈ lex b, t.error = none) (hbs : Shape (lex b)) :
    (∃ n, lex (a ++ b) = lex a ++ (lex b).map (laterTok n)) ∧ Between (a ++ b) := by
  have hfa : (lex a).filter (·.error == none) = lex a := List.filter_eq_self.mpr fun t ht => by rw [hae t ht]; rfl
  obtain ⟨st, h1, h2, h3⟩ := ha
  rw [hfa] at h1
  have hr : Reach st := reach_run reach_init h1
  obtain ⟨st', k1, k2, k3, k4, -⟩ := lines_run hb hbe hbs hr h2 h3
  have hd : st.depth = 0 := by
    have h4 := hr.depth
    by_contra hne
    have hfin : lexFinish st = [] := by
      have := lex_run h1
      exact (List.append_cancel_left (as := lex a) (bs := []) (by rw [List.append_nil]; exact this)).symm
    unfold lexFinish at hfin
    simp only [hr.space h2, List.length_nil, gt_iff_lt, lt_self_iff_false, if_false, List.nil_append] at hfin
    rw [if_pos (by omega)] at hfin
    cases hfin
  have hrun : lexRun {} (a ++ b) = (lex a ++ (lex b).map (laterTok (st.tokenLine - 1)), some st') := by
    rw [lexRun_append, h1]
    simp only [k1]
  have hr' : Reach st' := reach_run reach_init hrun
  have e : lex (a ++ b) = lex a ++ (lex b).map (laterTok (st.tokenLine - 1)) := by
    rw [lex_run hrun]
    have : lexFinish st' = [] := by
      unfold lexFinish
      simp [hr'.space k2, k4, hd]
    rw [this, List.append_nil]
  refine ⟨⟨_, e⟩, st', ?_, k2, k3⟩
  rw [hrun, e]
  congr 1
  refine (List.filter_eq_self.mpr fun t ht => ?_).symm
  rcases List.mem_append.mp ht with ht | ht
  · rw [hae t ht]; rfl
  · obtain ⟨t', ht', rfl⟩ := List.mem_map.mp ht
    have : (laterTok (st.tokenLine - 1) t').error = none := hbe t' ht'
    rw [this]; rfl

/-- The tokens of a text in which statements are replaced by others. -/
theorem lex_replace {pre s b post : Str} (hpre : Boundary lex pre) (hs : Between s) (hse : ∀ t ∈ lex s, t.error = none) (hss : Shape (lex s)) (hsm : ∃ T m, lex s = T ++ [m] ∧ Mark m c!";")
    (hb : Between b) (hbe : ∀ t ∈ lex b, t.error = none) (hbs : Shape (lex b)) (he : ∀ t ∈ lex (pre ++ (s ++ post)), t.error = none) :
    ∃ T1 T2 p n, AtStatement T1 ∧ lex (pre ++ (s ++ post)) = T1 ++ ((lex s).map (laterTok p) ++ T2) ∧
      lex (pre ++ (b ++ post)) = T1 ++ ((lex b).map (laterTok p) ++ T2.map (laterTok n)) := by
  rcases hrun : lexRun {} pre with ⟨out, _ | st⟩
  · obtain ⟨t, ht, hte⟩ := stop_run hrun
    refine absurd (he t ?_) hte
    rw [lex_eq_loop, loop_append, hrun]
    exact ht
  have hr : Reach st := reach_run reach_init hrun
  have hout : ∀ t ∈ out, t.error = none := by
    intro t ht
    refine he t ?_
    rw [lex_eq_loop, loop_append, hrun]
    exact List.mem_append_left _ ht
  obtain ⟨f1, f2, f3⟩ := boundary_state hpre hrun hout
  obtain ⟨st2, a1, a2, a3, a4, a5⟩ := lines_run hs hse hss hr f1 f2
  obtain ⟨st1, b1, b2, b3, b4, -⟩ := lines_run hb hbe hbs hr f1 f2
  have e2 : lex (pre ++ (s ++ post)) = out ++ ((lex s).map (laterTok (st.tokenLine - 1)) ++ loop st2 post) := by
    rw [lex_eq_loop, loop_append, hrun]
    simp only [contin]
    rw [loop_append, a1]
    rfl
  have e1 : lex (pre ++ (b ++ post)) = out ++ ((lex b).map (laterTok (st.tokenLine - 1)) ++ loop st1 post) := by
    rw [lex_eq_loop, loop_append, hrun]
    simp only [contin]
    rw [loop_append, b1]
    rfl
  have hr2 : Reach st2 := reach_run hr a1
  have hr1 : Reach st1 := reach_run hr b1
  have hl : loop st1 post = (loop st2 post).map (laterTok (st1.tokenLine - st2.tokenLine)) := by
    refine later_loop post hr2 (b3.trans a3.symm) ⟨b2.trans a2.symm, (hr1.space b2).trans (hr2.space a2).symm, by rw [b4, a4]; simp, by omega,
      fun h => absurd a2 h, by simp [a2], by simp [a2], Or.inl fun _ => a5 hsm⟩ ?_
    intro t ht
    refine he t ?_
    rw [e2]
    exact List.mem_append_right _ (List.mem_append_right _ ht)
  exact ⟨out, loop st2 post, _, _, by rw [← f3]; exact hpre.at, e2, by rw [e1, hl]⟩

end Verif
