import Verif.Proofs.Concat
import Verif.Proofs.LexExt
/-!
# Lexing two texts one after the other, with external lexers
-/
namespace Verif
open Spec ExtLex

/-- lex.go:186-188: the external lexer that is called at this character, if any. -/
def lookAt (ext : ExtLexers) (st : LexSt) (c : Char) : Option ExtLexer :=
  if c = '\r' ∨ (c = '\\' ∧ st.esc = false) then none
  else if st.token ≠ [] ∧ (bump st c).nextTokenIsDirective = true then ext st.token
  else none

/-- lex.go:181-184: the character, with the backslash before it. -/
def laText (st : LexSt) (c : Char) : Str := if st.esc then ['\\', c] else [c]

/-- lex.go:189-207: the state after the call of an external lexer that reads `k` runes. -/
def afterCall (st : LexSt) (c : Char) (cs : List Char) (k : Nat) : LexSt :=
  { (bump st c).reset with esc := false, tokenLine := (bump st c).tokenLine + countNL (cs.take k) }

/-- lex.go:186-207: a character at which an external lexer is called; the tokens, and the state. -/
def callStep (lx : ExtLexer) (st : LexSt) (c : Char) (cs : List Char) : List Tok × Option LexSt :=
  let r := lx cs (bump st c).tokenLine
  let name : Tok := ⟨st.token, st.tokenStartLine, st.lexState == .inQuote, none⟩
  let la := laText st c
  if st.lexState = .inQuote ∧ la = st.quote then (name :: r.1, some (afterCall st c cs r.2))
  else (name :: r.1 ++ (lexSwitch (afterCall st c cs r.2) la).1, (lexSwitch (afterCall st c cs r.2) la).2)

/-- The calls of external lexers while a text is lexed (lex.go:157-338): the lexer, what it has before it, and the line.  The first argument is the one of
`tokenizeLoop`. -/
def extCalls (ext : ExtLexers) : Nat → LexSt → List Char → List (ExtLexer × List Char × Int)
  | _, _, [] => []
  | k + 1, st, _ :: cs => extCalls ext k st cs
  | 0, st, c :: cs =>
    match lookAt ext st c with
    | none =>
      match (lexStep st c).2 with
      | none => []
      | some st' => extCalls ext 0 st' cs
    | some lx => (lx, cs, (bump st c).tokenLine) ::
      match (callStep lx st c cs).2 with
      | none => []
      | some st' => extCalls ext (lx cs (bump st c).tokenLine).2 st' cs

theorem extCalls_drop (ext : ExtLexers) (st : LexSt) (cs : List Char) : ∀ n, extCalls ext n st cs = extCalls ext 0 st (cs.drop n) := by
  induction cs with
  | nil => intro n; cases n <;> simp [extCalls]
  | cons c cs ih =>
    intro n
    cases n with
    | zero => rfl
    | succ n => rw [extCalls, ih, List.drop_succ_cons]

theorem loopE_drop (ext : ExtLexers) (st : LexSt) (cs : List Char) : ∀ n, tokenizeLoop ext n st cs = loopE ext st (cs.drop n) := by
  induction cs with
  | nil => intro n; cases n <;> simp [tokenizeLoop]
  | cons c cs ih =>
    intro n
    cases n with
    | zero => rfl
    | succ n => rw [tokenizeLoop, ih, List.drop_succ_cons]

variable {ext : ExtLexers}

theorem loopE_none {st : LexSt} {c : Char} (h : lookAt ext st c = none) (cs : List Char) : loopE ext st (c :: cs) = continE ext cs (lexStep st c) := by
  unfold lookAt at h
  unfold lexStep
  by_cases h1 : c = '\r'
  · subst h1
    simp [loopE, tokenizeLoop, continE]
  · by_cases h2 : c = '\\' ∧ st.esc = false
    · obtain ⟨rfl, he⟩ := h2
      rw [loopE_backslash _ _ he, if_neg (by decide), if_pos ⟨rfl, he⟩]
      rfl
    · rw [if_neg (by tauto)] at h
      rw [if_neg h1, if_neg h2]
      have hx : NoLook ext st c := by
        intro ht hd
        rw [if_pos ⟨ht, by rw [bump_dir]; exact hd⟩] at h
        exact h
      cases he : st.esc with
      | true => rw [loopE_esc st c cs he h1 hx]; simp
      | false => rw [loopE_plain st c cs he h1 (fun e => h2 ⟨e, he⟩) hx]; simp

theorem loopE_some {st : LexSt} {c : Char} {lx : ExtLexer} (h : lookAt ext st c = some lx) (cs : List Char) :
    loopE ext st (c :: cs) = continE ext (cs.drop (lx cs (bump st c).tokenLine).2) (callStep lx st c cs) := by
  unfold lookAt at h
  split at h
  · cases h
  · rename_i h1
    split at h
    · rename_i h2
      rw [not_or] at h1
      have e1 : (c == '\r') = false := by simpa using h1.1
      have e2 : (c == '\\' && !st.esc) = false := by
        by_contra hh
        simp at hh
        exact h1.2 ⟨hh.1, by simpa using hh.2⟩
      have e3 : (decide ((bump st c).token.length > 0) && (bump st c).nextTokenIsDirective) = true := by
        rw [bump_token, h2.2]
        simpa using List.length_pos_iff.mpr h2.1
      have e4 : ext (bump st c).token = some lx := by rw [bump_token]; exact h
      have ht : (bump st c).tokenStartLine = st.tokenStartLine := by unfold bump; split <;> rfl
      have hq : (bump st c).quote = st.quote := by unfold bump; split <;> rfl
      rw [loopE, tokenizeLoop]
      simp only [bump_def, e1, bump_esc, e2, Bool.false_eq_true, if_false]
      split
      · rename_i lx' hlx
        have hl : some lx = some lx' := (((if_pos e3).trans e4).symm).trans hlx
        have hl := Option.some.inj hl
        subst hl
        unfold callStep
        by_cases hc : st.lexState = .inQuote ∧ laText st c = st.quote
        · refine (if_pos ?_).trans ?_
          · simp only [bump_lexState, Bool.and_eq_true, beq_iff_eq]
            exact ⟨hc.1, hc.2.trans hq.symm⟩
          · rw [if_pos hc, loopE_drop, LexSt.emitTok]
            simp [bump_lexState, ht, bump_token, continE, afterCall, LexSt.reset]
        · refine (if_neg ?_).trans ?_
          · simp only [bump_lexState, Bool.and_eq_true, beq_iff_eq]
            exact fun k => hc ⟨k.1, k.2.trans hq⟩
          · rw [if_neg hc]
            show (match lexSwitch (afterCall st c cs (lx cs (bump st c).tokenLine).2) (laText st c) with
              | (out, none) => _ | (out, some st') => _) = _
            generalize lexSwitch (afterCall st c cs (lx cs (bump st c).tokenLine).2) (laText st c) = w
            rcases w with ⟨out, _ | st'⟩
            · simp [continE, LexSt.emitTok, bump_lexState, ht, bump_token]
            · simp only [continE, LexSt.emitTok, bump_lexState, ht, bump_token]
              rw [loopE_drop]
      · rename_i hlx
        have hl : some lx = none := (((if_pos e3).trans e4).symm).trans hlx
        cases hl
    · cases h

/-! ## Directive position -/

/-- Whether the next token is in directive position, after a character in a word. -/
def dirInWord (new : Bool) (token : Str) (d : Bool) (la : Str) : Bool :=
  if new && la == ['#'] then false
  else if isSpace la then false
  else if token.length > 0 && hasSuffix token ['$'] && la == ['{'] then false
  else if la == ['"'] || la == ['\''] then d
  else if isSpecial la then true
  else d

theorem dir_inWord {st st' : LexSt} {la : Str} {out : List Tok} (h : lexInWord st la = (out, some st')) :
    st'.nextTokenIsDirective = dirInWord st.newToken st.token st.nextTokenIsDirective la := by
  unfold lexInWord at h
  unfold dirInWord
  split at h
  · rename_i h1; rw [if_pos h1]; cases h; rfl
  · rename_i h1
    rw [if_neg h1]
    simp only at h
    split at h
    · rename_i h2; rw [if_pos h2]; cases h; rfl
    · rename_i h2
      rw [if_neg h2]
      split at h
      · rename_i h3; rw [if_pos h3]; cases h; rfl
      · rename_i h3
        rw [if_neg h3]
        split at h
        · rename_i h4
          rw [if_pos h4]
          split at h <;> (cases h; rfl)
        · rename_i h4
          rw [if_neg h4]
          split at h
          · rename_i h5
            rw [if_pos h5]
            rw [lexSpecial_eq _ h5] at h
            split at h
            · cases h
            · split at h
              · cases h
              · cases h; rfl
          · rename_i h5; rw [if_neg h5]; cases h; rfl

theorem dir_switch {n k : Int} {st1 st2 st1' st2' : LexSt} {la : Str} {o1 o2 toks : List Tok} (hk : Later n k st1 st2 toks)
    (hd : st1.nextTokenIsDirective = st2.nextTokenIsDirective) (h1 : lexSwitch st1 la = (o1, some st1')) (h2 : lexSwitch st2 la = (o2, some st2')) :
    st1'.nextTokenIsDirective = st2'.nextTokenIsDirective := by
  unfold lexSwitch at h1 h2
  rw [hk.state] at h1
  split at h2
  · rename_i hs
    rw [hs] at h1
    simp only at h1
    split at h2
    · rename_i hsp
      rw [if_pos hsp] at h1
      rw [dir_inWord h1, dir_inWord h2]
      show dirInWord true st1.token st1.nextTokenIsDirective la = dirInWord true st2.token st2.nextTokenIsDirective la
      rw [hk.token, hd]
    · rename_i hsp
      rw [if_neg hsp] at h1
      cases h1; cases h2; exact hd
  · rename_i hs
    rw [hs] at h1
    simp only at h1
    rw [dir_inWord h1, dir_inWord h2, hk.token, hd, hk.newToken (Or.inl hs)]
  · rename_i hs
    rw [hs] at h1
    simp only at h1
    split at h2
    · rename_i he; rw [if_pos he] at h1; cases h1; cases h2; exact hd
    · rename_i he; rw [if_neg he] at h1; cases h1; cases h2; exact hd
  · rename_i hs
    rw [hs] at h1
    simp only at h1 h2
    rw [hk.token] at h1
    split at h2
    · rename_i he; rw [if_pos he] at h1; cases h1; cases h2; exact hd
    · rename_i he; rw [if_neg he] at h1; cases h1; cases h2; exact hd
  · rename_i hs
    rw [hs] at h1
    simp only at h1
    rw [hk.quote hs] at h1
    split at h2
    · rename_i he; rw [if_pos he] at h1; cases h1; cases h2; exact hd
    · rename_i he; rw [if_neg he] at h1; cases h1; cases h2; exact hd

theorem bump_later {n k : Int} {st1 st2 : LexSt} {toks : List Tok} (hk : Later n k st1 st2 toks) (c : Char) : Later n k (bump st1 c) (bump st2 c) toks := by
  unfold bump
  split
  · exact ⟨hk.state, hk.token, hk.depth, by simp [hk.line]; omega, hk.start, hk.newToken, hk.quote, hk.dup⟩
  · exact hk

/-! ## The same, some lines later -/

/-- The tokens of the external lexers do not depend on the line, but for the lines of the tokens; if there are no errors. -/
def Shifts (ext : ExtLexers) : Prop :=
  ∀ name lx, ext name = some lx → ∀ (cs : List Char) (line n : Int), (∀ t ∈ (lx cs line).1, t.error = none) →
    lx cs (line + n) = ((lx cs line).1.map (laterTok n), (lx cs line).2)

theorem later_one {n k : Int} (hk0 : 0 ≤ k) {c : Char} {out R : List Tok} {st1 st2 st2' : LexSt} (hr : Reach st2) (he : st1.esc = st2.esc)
    (hd : st1.nextTokenIsDirective = st2.nextTokenIsDirective) (hk : Later n k st1 st2 (out ++ R)) (h : lexStep st2 c = (out, some st2')) :
    ∃ st1', lexStep st1 c = (out.map (laterTok n), some st1') ∧ st1'.esc = st2'.esc ∧ st1'.nextTokenIsDirective = st2'.nextTokenIsDirective ∧
      Later n k st1' st2' R := by
  by_cases h1 : c = '\r'
  · rw [lexStep, if_pos h1] at h
    cases h
    exact ⟨st1, by rw [lexStep, if_pos h1]; rfl, he, hd, hk⟩
  · by_cases h2 : c = '\\' ∧ st2.esc = false
    · have h2' : c = '\\' ∧ st1.esc = false := ⟨h2.1, he.trans h2.2⟩
      rw [lexStep, if_neg h1, if_pos h2] at h
      cases h
      exact ⟨{ st1 with esc := true }, by rw [lexStep, if_neg h1, if_pos h2']; rfl, rfl, hd,
        hk.state, hk.token, hk.depth, hk.line, hk.start, hk.newToken, hk.quote, hk.dup⟩
    · obtain ⟨u, hu, hc, hue, e2⟩ := lexStep_unit st2 c h1 h2
      have hu2 : u.text = if st2.esc then ['\\', c] else [c] := by
        cases he2 : st2.esc with
        | true => rw [hue.mp he2]; simp [U.text]
        | false =>
          cases u with
          | plain c' => simp only [U.char] at hc; subst hc; simp [U.text]
          | esc c' =>
            simp only [U.char] at hc; subst hc
            rw [hue.mpr rfl] at he2; cases he2
      have e1 : lexStep st1 c = lexSwitch { bump st1 c with esc := false } u.text := by
        unfold lexStep
        rw [if_neg h1, if_neg (by rw [he]; exact h2), he, hu2]
      rw [e2] at h
      have hk' := bump_later hk c
      have hk'' : Later n k { bump st1 c with esc := false } { bump st2 c with esc := false } (out ++ R) :=
        ⟨hk'.state, hk'.token, hk'.depth, hk'.line, hk'.start, hk'.newToken, hk'.quote, hk'.dup⟩
      obtain ⟨st1', f1, f2⟩ := later_switch hk0 (reach_bump hr c false) hk'' h
      refine ⟨st1', by rw [e1, f1], (esc_switch f1).1.trans (esc_switch h).1.symm, ?_, f2⟩
      refine dir_switch hk'' ?_ f1 h
      show (bump st1 c).nextTokenIsDirective = (bump st2 c).nextTokenIsDirective
      rw [bump_dir, bump_dir, hd]

theorem lookAt_later {n k : Int} {c : Char} {R : List Tok} {st1 st2 : LexSt} (he : st1.esc = st2.esc)
    (hd : st1.nextTokenIsDirective = st2.nextTokenIsDirective) (hk : Later n k st1 st2 R) : lookAt ext st1 c = lookAt ext st2 c := by
  unfold lookAt
  rw [he, hk.token, bump_dir, bump_dir, hd]

/-- Where an external lexer is called. -/
theorem lookAt_some {st : LexSt} {c : Char} {lx : ExtLexer} (h : lookAt ext st c = some lx) :
    c ≠ '\r' ∧ ¬ (c = '\\' ∧ st.esc = false) ∧ st.token ≠ [] ∧ ext st.token = some lx := by
  unfold lookAt at h
  split at h
  · cases h
  · rename_i h1
    rw [not_or] at h1
    split at h
    · rename_i h2; exact ⟨h1.1, h1.2, h2.1, h⟩
    · cases h

theorem la_unit {st : LexSt} {c : Char} (h1 : c ≠ '\r') (h2 : ¬ (c = '\\' ∧ st.esc = false)) : ∃ u : U, u.wf ∧ u.char = c ∧ u.text = laText st c := by
  unfold laText
  cases he : st.esc with
  | true => exact ⟨.esc c, h1, rfl, by simp [U.text]⟩
  | false => exact ⟨.plain c, ⟨fun e => h2 ⟨e, he⟩, h1⟩, rfl, by simp [U.text]⟩

theorem reach_afterCall {st : LexSt} (hr : Reach st) (c : Char) (cs : List Char) (k : Nat) : Reach (afterCall st c cs k) := by
  refine ⟨fun _ => rfl, by simp [afterCall, LexSt.reset], by simp [afterCall, LexSt.reset], by simp [afterCall, LexSt.reset], ?_⟩
  exact (reach_bump hr c false).depth

theorem later_call {n k : Int} (hk0 : 0 ≤ k) (hsh : Shifts ext) (hx : ∀ s, ext ('#' :: s) = none) {c : Char} {cs : List Char} {out R : List Tok} {lx : ExtLexer}
    {st1 st2 st2' : LexSt} (hr : Reach st2) (he : st1.esc = st2.esc) (hd : st1.nextTokenIsDirective = st2.nextTokenIsDirective)
    (hk : Later n k st1 st2 (out ++ R)) (hl : lookAt ext st2 c = some lx) (h : callStep lx st2 c cs = (out, some st2')) (hn : ∀ t ∈ out, t.error = none) :
    (lx cs (bump st1 c).tokenLine).2 = (lx cs (bump st2 c).tokenLine).2 ∧
    ∃ st1', callStep lx st1 c cs = (out.map (laterTok n), some st1') ∧ st1'.esc = st2'.esc ∧ st1'.nextTokenIsDirective = st2'.nextTokenIsDirective ∧
      Later n k st1' st2' R := by
  obtain ⟨h1, h2, h3, h4⟩ := lookAt_some hl
  have hs1 : st2.lexState ≠ .skipSpace := fun e => h3 (hr.space e)
  have hs2 : st2.lexState ≠ .inComment := by
    intro e
    obtain ⟨s, hs⟩ := hr.comment e
    rw [hs, hx] at h4; cases h4
  have hdup : st1.dupSpecialChar = true → st2.dupSpecialChar = true := by
    rcases hk.dup with h | h
    · exact h
    · exact absurd h.1 (by simp [hs1, hs2])
  have hline : (bump st1 c).tokenLine = (bump st2 c).tokenLine + n := (bump_later hk c).line
  have hnr : ∀ t ∈ (lx cs (bump st2 c).tokenLine).1, t.error = none := by
    intro t ht
    refine hn t ?_
    unfold callStep at h
    simp only at h
    split at h
    · cases h; exact List.mem_cons_of_mem _ ht
    · simp only [Prod.mk.injEq] at h
      rw [← h.1]
      exact List.mem_append_left _ (List.mem_cons_of_mem _ ht)
  have hsx := hsh _ lx h4 cs (bump st2 c).tokenLine n hnr
  rw [← hline] at hsx
  refine ⟨by rw [hsx], ?_⟩
  have hb1 : (bump st1 c).nextTokenIsDirective = (bump st2 c).nextTokenIsDirective := by rw [bump_dir, bump_dir, hd]
  have hbd : ∀ st : LexSt, (bump st c).dupSpecialChar = st.dupSpecialChar := by intro st; unfold bump; split <;> rfl
  have hA : ∀ T, Later n k (afterCall st1 c cs (lx cs (bump st2 c).tokenLine).2) (afterCall st2 c cs (lx cs (bump st2 c).tokenLine).2) T := by
    intro T
    refine ⟨rfl, rfl, (bump_later hk c).depth, ?_, fun h => absurd rfl h, by simp [afterCall, LexSt.reset], by simp [afterCall, LexSt.reset], Or.inl ?_⟩
    · show (bump st1 c).tokenLine + _ = (bump st2 c).tokenLine + _ + n
      rw [hline]; omega
    · show (bump st1 c).dupSpecialChar = true → (bump st2 c).dupSpecialChar = true
      rw [hbd, hbd]; exact hdup
  unfold callStep at h ⊢
  simp only at h ⊢
  have hla : laText st1 c = laText st2 c := by unfold laText; rw [he]
  rw [hsx, hla, hk.state, hk.token, hk.start hs1]
  by_cases hq : st2.lexState = .inQuote ∧ laText st2 c = st2.quote
  · rw [if_pos hq] at h
    cases h
    rw [if_pos ⟨hq.1, by rw [hk.quote hq.1]; exact hq.2⟩]
    exact ⟨_, rfl, rfl, hb1, hA _⟩
  · rw [if_neg hq] at h
    rw [if_neg (fun k' => hq ⟨k'.1, by rw [← hk.quote k'.1]; exact k'.2⟩)]
    simp only [Prod.mk.injEq] at h
    obtain ⟨h5, h6⟩ := h
    obtain ⟨u, -, -, hu⟩ := la_unit h1 h2
    rw [← hu] at h5 h6 ⊢
    rcases hsw : lexSwitch (afterCall st2 c cs (lx cs (bump st2 c).tokenLine).2) u.text with ⟨o, _ | s⟩
    · rw [hsw] at h6; cases h6
    · rw [hsw] at h5 h6
      simp only [Option.some.injEq] at h5 h6
      subst h6
      obtain ⟨st1', f1, f2⟩ := later_switch (R := R) hk0 (reach_afterCall hr c cs _) (hA _) hsw
      refine ⟨st1', by rw [f1, ← h5]; simp [laterTok], (esc_switch f1).1.trans (esc_switch hsw).1.symm, dir_switch (hA R) hb1 f1 hsw, f2⟩

theorem reach_call {st st' : LexSt} {c : Char} {cs : List Char} {lx : ExtLexer} {out : List Tok} (hr : Reach st) (hl : lookAt ext st c = some lx)
    (h : callStep lx st c cs = (out, some st')) : Reach st' := by
  obtain ⟨h1, h2, -, -⟩ := lookAt_some hl
  unfold callStep at h
  simp only at h
  split at h
  · cases h; exact reach_afterCall hr c cs _
  · obtain ⟨u, hu, -, hu'⟩ := la_unit h1 h2
    rw [← hu'] at h
    simp only [Prod.mk.injEq] at h
    exact reach_switch hu (reach_afterCall hr c cs _) (Prod.ext rfl h.2)

theorem stop_call {st : LexSt} {c : Char} {cs : List Char} {lx : ExtLexer} {out : List Tok} (h : callStep lx st c cs = (out, none)) : ∃ t ∈ out, t.error ≠ none := by
  unfold callStep at h
  simp only at h
  split at h
  · cases h
  · simp only [Prod.mk.injEq] at h
    obtain ⟨t, ht, he⟩ := stop_switch (Prod.ext rfl h.2)
    exact ⟨t, by rw [← h.1]; exact List.mem_append_right _ ht, he⟩

theorem laterE_loop (hsh : Shifts ext) (hx : ∀ s, ext ('#' :: s) = none) {n : Int} : ∀ (N : Nat) (s : List Char), s.length ≤ N → ∀ {st1 st2 : LexSt}, Reach st2 →
    st1.esc = st2.esc → st1.nextTokenIsDirective = st2.nextTokenIsDirective → Later n 0 st1 st2 (loopE ext st2 s) →
    (∀ t ∈ loopE ext st2 s, t.error = none) → loopE ext st1 s = (loopE ext st2 s).map (laterTok n) := by
  intro N
  induction N with
  | zero =>
    intro s hN st1 st2 hr he hd hk hn
    obtain rfl : s = [] := List.length_eq_zero_iff.mp (by omega)
    rw [loopE_nil] at hn hk ⊢
    rw [loopE_nil]
    exact later_finish hr hk hn
  | succ N ih =>
    intro s hN st1 st2 hr he hd hk hn
    cases s with
    | nil =>
      rw [loopE_nil] at hn hk ⊢
      rw [loopE_nil]
      exact later_finish hr hk hn
    | cons c cs =>
      have hN' : cs.length ≤ N := by simpa using hN
      cases hl : lookAt ext st2 c with
      | none =>
        have hl1 : lookAt ext st1 c = none := (lookAt_later he hd hk).trans hl
        rw [loopE_none hl] at hk hn ⊢
        rw [loopE_none hl1]
        rcases hs : lexStep st2 c with ⟨out, _ | st2'⟩
        · rw [hs] at hn
          obtain ⟨t, ht, hte⟩ := stop_step hs
          exact absurd (hn t ht) hte
        · rw [hs] at hk hn
          obtain ⟨st1', f1, f2, f3, f4⟩ := later_one (by omega) hr he hd hk hs
          rw [f1]
          simp only [continE, List.map_append] at hn ⊢
          rw [ih cs hN' (reach_step hr hs) f2 f3 f4 (fun t ht => hn t (List.mem_append_right _ ht))]
      | some lx =>
        have hl1 : lookAt ext st1 c = some lx := (lookAt_later he hd hk).trans hl
        rw [loopE_some hl] at hk hn ⊢
        rw [loopE_some hl1]
        rcases hs : callStep lx st2 c cs with ⟨out, _ | st2'⟩
        · rw [hs] at hn
          obtain ⟨t, ht, hte⟩ := stop_call hs
          exact absurd (hn t ht) hte
        · rw [hs] at hk hn
          simp only [continE] at hk hn ⊢
          obtain ⟨f0, st1', f1, f2, f3, f4⟩ := later_call (by omega) hsh hx hr he hd hk hl hs (fun t ht => hn t (List.mem_append_left _ ht))
          rw [f1, f0]
          simp only [List.map_append]
          rw [ih (cs.drop (lx cs (bump st2 c).tokenLine).2) (by rw [List.length_drop]; omega) (reach_call hr hl hs) f2 f3 f4
            (fun t ht => hn t (List.mem_append_right _ ht))]

/-! ## The first text -/

/-- After a line feed that does not end a word, the next token is in directive position. -/
theorem nl_dir {st st' : LexSt} {out : List Tok} (hr : Reach st) (h : lexStep st '\n' = (out, some st')) (hs' : st'.lexState = .skipSpace) :
    st'.nextTokenIsDirective = true ∨ ∃ t, out = [t] ∧ WordTok t := by
  obtain ⟨u, hu, hc, -, e⟩ := lexStep_unit st '\n' (by decide) (by simp)
  rw [e] at h
  have hr' := reach_bump hr '\n' false
  have hf : ({ bump st '\n' with esc := false } : LexSt).nextTokenIsDirective = true := rfl
  generalize { bump st '\n' with esc := false } = st0 at h hr' hf
  have hne : u.text ≠ ['#'] ∧ u.text ≠ ['"'] ∧ u.text ≠ ['\''] ∧ isSpecial u.text = false := by
    cases u <;> (simp only [U.char] at hc; subst hc; decide)
  have key : ∀ st1 : LexSt, st1.lexState = .inWord → lexInWord st1 u.text = (out, some st') →
      isSpace u.text = true ∧ out = [st1.emitTok st1.tokenStartLine false none] := by
    intro st1 h1 h
    unfold lexInWord at h
    rw [if_neg (by simp [hne.1])] at h
    simp only at h
    split at h
    · rename_i hsp
      cases h; exact ⟨hsp, rfl⟩
    · split at h
      · cases h; simp at hs'
      · rw [if_neg (by simp [hne.2.1, hne.2.2.1]), if_neg (by simp [hne.2.2.2])] at h
        cases h
        simp [h1] at hs'
  unfold lexSwitch at h
  split at h
  · rename_i hs
    split at h
    · rename_i hsp
      have := (key _ rfl h).1
      rw [this] at hsp
      simp at hsp
    · cases h
      exact Or.inl hf
  · rename_i hs
    obtain ⟨-, ho⟩ := key _ hs h
    refine Or.inr ⟨_, ho, ?_⟩
    obtain ⟨⟨c, s, hv, h1, h2, h3, h4⟩, -⟩ := hr'.word (Or.inl hs)
    have hv' : (st0.emitTok st0.tokenStartLine false none).value = c :: s := hv
    refine ⟨fun _ h => ?_, fun h => ?_, fun h => ?_, fun h => ?_⟩ <;>
      (have := h.2; rw [hv'] at this; simp_all)
  · rename_i hs
    split at h
    · cases h; exact Or.inl hf
    · cases h
      simp [hs] at hs'
  · rename_i hs
    simp only at h
    split at h
    · cases h; simp [hs] at hs'
    · cases h; simp at hs'
  · rename_i hs
    split at h
    · rename_i hq
      have hq' := hr'.quote hs
      simp only [beq_iff_eq] at hq
      rcases hq' with h' | h' <;> rw [h'] at hq
      · exact absurd hq hne.2.1
      · exact absurd hq hne.2.2.1
    · cases h
      simp [hs] at hs'

/-- The call of an external lexer ends before the end of the text, whatever comes after the text. -/
def EndsBefore (call : ExtLexer × List Char × Int) : Prop :=
  (call.1 call.2.1 call.2.2).2 < call.2.1.length ∧ ∀ b, call.1 (call.2.1 ++ b) call.2.2 = call.1 call.2.1 call.2.2

theorem callStep_append {lx : ExtLexer} {st : LexSt} {c : Char} {cs : List Char} (h : EndsBefore (lx, cs, (bump st c).tokenLine)) (b : List Char) :
    callStep lx st c (cs ++ b) = callStep lx st c cs := by
  unfold callStep
  simp only
  have h2 := h.2 b
  simp only at h2
  rw [h2]
  have : afterCall st c (cs ++ b) (lx cs (bump st c).tokenLine).2 = afterCall st c cs (lx cs (bump st c).tokenLine).2 := by
    unfold afterCall
    rw [List.take_append_of_le_length (Nat.le_of_lt h.1)]
  rw [this]

theorem line_call {st st' : LexSt} {c : Char} {cs : List Char} {lx : ExtLexer} {out : List Tok} (h : callStep lx st c cs = (out, some st')) :
    st'.tokenLine = st.tokenLine + nls [c] + nls (cs.take (lx cs (bump st c).tokenLine).2) := by
  have hb : (bump st c).tokenLine = st.tokenLine + nls [c] := by
    unfold bump
    rw [nls_single]
    by_cases hc : c = '\n'
    · simp [hc]
    · simp [hc]
  unfold callStep at h
  simp only at h
  split at h
  · cases h
    show (bump st c).tokenLine + _ = _
    rw [hb]; rfl
  · simp only [Prod.mk.injEq] at h
    rw [(esc_switch (Prod.ext rfl h.2)).2]
    show (bump st c).tokenLine + _ = _
    rw [hb]; rfl

theorem runE : ∀ (N : Nat) (a : List Char), a.length ≤ N → ∀ {st : LexSt}, Reach st → (∀ call ∈ extCalls ext 0 st a, EndsBefore call) →
    (∀ t ∈ loopE ext st a, t.error = none) →
    ∃ out st', Reach st' ∧ loopE ext st a = out ++ lexFinish st' ∧ (∀ b, loopE ext st (a ++ b) = out ++ loopE ext st' b) ∧
      st'.tokenLine = st.tokenLine + nls a ∧
      (∀ a', a = a' ++ ['\n'] → st'.esc = false ∧ st'.lexState ≠ .inComment ∧ (st'.lexState = .inQuote → st'.token ≠ []) ∧
        (st'.lexState = .skipSpace → st'.nextTokenIsDirective = true ∨ ∃ pre t, out = pre ++ [t] ∧ WordTok t)) := by
  intro N
  induction N with
  | zero =>
    intro a hN st hr hcl hn
    obtain rfl : a = [] := List.length_eq_zero_iff.mp (by omega)
    exact ⟨[], st, hr, by simp [loopE_nil], fun b => rfl, by simp [nls_nil], by simp⟩
  | succ N ih =>
    intro a hN st hr hcl hn
    cases a with
    | nil => exact ⟨[], st, hr, by simp [loopE_nil], fun b => rfl, by simp [nls_nil], by simp⟩
    | cons c cs =>
      have hN' : cs.length ≤ N := by simpa using hN
      cases hl : lookAt ext st c with
      | none =>
        rw [loopE_none hl] at hn ⊢
        rcases hs : lexStep st c with ⟨out, _ | st'⟩
        · rw [hs] at hn
          obtain ⟨t, ht, hte⟩ := stop_step hs
          exact absurd (hn t ht) hte
        · rw [hs] at hn
          simp only [continE] at hn ⊢
          have hcl' : ∀ call ∈ extCalls ext 0 st' cs, EndsBefore call := by
            intro call hc
            refine hcl call ?_
            rw [extCalls, hl]
            simp only [hs]
            exact hc
          cases cs with
          | nil =>
            refine ⟨out, st', reach_step hr hs, by rw [loopE_nil], ?_, line_step hs, ?_⟩
            · intro b
              rw [List.cons_append, loopE_none hl, hs, continE]; rfl
            · intro a' ha
              have hc : c = '\n' := by
                cases a' with
                | nil => simpa using ha
                | cons y a' => simp at ha
              subst hc
              obtain ⟨k1, k2, k3⟩ := nl_step hr hs
              refine ⟨k1, k2, k3, fun hsp => ?_⟩
              rcases nl_dir hr hs hsp with k | ⟨t, k, kt⟩
              · exact Or.inl k
              · exact Or.inr ⟨[], t, by rw [k]; rfl, kt⟩
          | cons c2 cs =>
            obtain ⟨o2, st2, g1, g2, g3, g4, g5⟩ := ih (c2 :: cs) hN' (reach_step hr hs) hcl' (fun t ht => hn t (List.mem_append_right _ ht))
            refine ⟨out ++ o2, st2, g1, by rw [g2, List.append_assoc], ?_, ?_, ?_⟩
            · intro b
              rw [List.cons_append, loopE_none hl, hs, continE, g3, List.append_assoc]
            · rw [g4, line_step hs, show c :: c2 :: cs = [c] ++ (c2 :: cs) from rfl, nls_append]; omega
            · intro a' ha
              cases a' with
              | nil => simp at ha
              | cons y a' =>
                obtain ⟨k1, k2, k3, k4⟩ := g5 a' (by simpa using (List.cons.inj ha).2)
                refine ⟨k1, k2, k3, fun hsp => (k4 hsp).imp id ?_⟩
                rintro ⟨pre, t, rfl, kt⟩
                exact ⟨out ++ pre, t, by simp, kt⟩
      | some lx =>
        have hcall : EndsBefore (lx, cs, (bump st c).tokenLine) := hcl _ (by rw [extCalls, hl]; exact List.mem_cons_self)
        rw [loopE_some hl] at hn ⊢
        rcases hs : callStep lx st c cs with ⟨out, _ | st'⟩
        · rw [hs] at hn
          obtain ⟨t, ht, hte⟩ := stop_call hs
          exact absurd (hn t ht) hte
        · rw [hs] at hn
          simp only [continE] at hn ⊢
          have hcl' : ∀ call ∈ extCalls ext 0 st' (cs.drop (lx cs (bump st c).tokenLine).2), EndsBefore call := by
            intro call hc
            refine hcl call ?_
            rw [extCalls, hl]
            simp only [hs]
            rw [extCalls_drop]
            exact List.mem_cons_of_mem _ hc
          obtain ⟨o2, st2, g1, g2, g3, g4, g5⟩ := ih (cs.drop (lx cs (bump st c).tokenLine).2) (by rw [List.length_drop]; omega) (reach_call hr hl hs) hcl'
            (fun t ht => hn t (List.mem_append_right _ ht))
          refine ⟨out ++ o2, st2, g1, by rw [g2, List.append_assoc], ?_, ?_, ?_⟩
          · intro b
            rw [List.cons_append, loopE_some hl, callStep_append hcall, hs, continE, show lx (cs ++ b) _ = _ from hcall.2 b, List.drop_append_of_le_length (Nat.le_of_lt hcall.1), g3,
              List.append_assoc]
          · have e : nls cs = nls (cs.take (lx cs (bump st c).tokenLine).2) + nls (cs.drop (lx cs (bump st c).tokenLine).2) := by
              rw [← nls_append, List.take_append_drop]
            rw [g4, line_call hs, show c :: cs = [c] ++ cs from rfl, nls_append, e]; omega
          · intro a' ha
            have h1 := hcall.1
            rcases List.eq_nil_or_concat (cs.drop (lx cs (bump st c).tokenLine).2) with hd | ⟨cs', x, hd⟩
            · have := congrArg List.length hd
              simp only [List.length_drop, List.length_nil] at this
              have h2 : (lx cs (bump st c).tokenLine).2 < cs.length := h1
              omega
            · rw [List.concat_eq_append] at hd
              have : (c :: (cs.take (lx cs (bump st c).tokenLine).2 ++ cs')) ++ [x] = a' ++ ['\n'] := by
                rw [← ha, List.cons_append, List.append_assoc, ← hd, List.take_append_drop]
              obtain ⟨-, hx⟩ := List.append_inj' this rfl
              obtain ⟨k1, k2, k3, k4⟩ := g5 cs' (by rw [hd, hx])
              refine ⟨k1, k2, k3, fun hsp => (k4 hsp).imp id ?_⟩
              rintro ⟨pre, t, rfl, kt⟩
              exact ⟨out ++ pre, t, by simp, kt⟩

/-- Lexing whole lines of statements, then more statements, with external lexers. -/
theorem lexWith_append (hsh : Shifts ext) (hx : ∀ s, ext ('#' :: s) = none) {a b : Str} (ha : WholeLines a) (he : ∀ t ∈ lexWith ext a, t.error = none)
    (hs : Shape (lexWith ext a)) (hc : ∀ call ∈ extCalls ext 0 {} a, EndsBefore call) (hb : ∀ t ∈ lexWith ext b, t.error = none)
    (hw : StartsWithWord (lexWith ext b)) : lexWith ext (a ++ b) = lexWith ext a ++ (lexWith ext b).map (laterTok (nls a)) := by
  rcases ha with rfl | ⟨s', rfl⟩
  · rw [nls_nil, laterTok_zero]
    have : lexWith ext [] = [] := by simp [lexWith, tokenizeLoop, lexFinish]
    rw [this]; simp
  · obtain ⟨out, st', hr, e, hap, hline, hnl⟩ := runE _ (s' ++ ['\n']) (Nat.le_refl _) reach_init hc he
    obtain ⟨hesc, hnc, hnq, hdir⟩ := hnl s' rfl
    change lexWith ext (s' ++ ['\n']) = _ at e
    have hd : st'.depth = 0 := by
      have h1 := hr.depth
      have h2 : ¬ st'.depth > 0 := by
        intro h
        have := he ⟨(if st'.token.length > 0 then st'.reset else st').token, (if st'.token.length > 0 then st'.reset else st').tokenStartLine, false,
          some (lexError c!"unexpected end of file, expecting \"}\"" (if st'.token.length > 0 then st'.reset else st').tokenLine)⟩ (by
            rw [e]
            unfold lexFinish
            refine List.mem_append_right _ (List.mem_append_right _ ?_)
            rw [if_pos (by split <;> exact h)]
            exact List.mem_singleton.mpr rfl)
        simp at this
      omega
    have hsp : st'.lexState = .skipSpace := by
      by_contra hne
      have htok : st'.token ≠ [] ∧ (st'.lexState ≠ .inQuote → WordStart st'.token) := by
        cases hl : st'.lexState with
        | skipSpace => exact absurd hl hne
        | inComment => exact absurd hl hnc
        | inQuote => exact ⟨hnq hl, by simp⟩
        | inWord =>
          obtain ⟨⟨c, s, h, h'⟩, -⟩ := hr.word (Or.inl hl)
          exact ⟨by simp [h], fun _ => ⟨c, s, h, h'⟩⟩
        | inVar =>
          obtain ⟨⟨c, s, h, h'⟩, -⟩ := hr.word (Or.inr hl)
          exact ⟨by simp [h], fun _ => ⟨c, s, h, h'⟩⟩
      have hlen : st'.token.length > 0 := List.length_pos_iff.mpr htok.1
      have hfin : lexFinish st' = [st'.emitTok st'.tokenStartLine (st'.lexState == .inQuote) none] := by
        unfold lexFinish
        simp only [if_pos hlen]
        rw [if_neg (by show ¬ st'.depth > 0; omega)]
        rfl
      rw [hfin] at e
      refine hs.last e ?_
      by_cases hq : st'.lexState = .inQuote
      · have : (st'.emitTok st'.tokenStartLine (st'.lexState == .inQuote) none).quoted = true := by simp [LexSt.emitTok, hq]
        refine ⟨fun _ h => ?_, fun h => ?_, fun h => ?_, fun h => ?_⟩ <;> (rw [h.1] at this; cases this)
      · obtain ⟨c, s, h, h1, h2, h3, h4⟩ := htok.2 hq
        have hv : (st'.emitTok st'.tokenStartLine (st'.lexState == .inQuote) none).value = c :: s := h
        refine ⟨fun _ h => ?_, fun h => ?_, fun h => ?_, fun h => ?_⟩ <;>
          (have := h.2; rw [hv] at this; simp_all)
    have hfin : lexFinish st' = [] := by
      unfold lexFinish
      simp [hr.space hsp, hd]
    rw [hfin, List.append_nil] at e
    have hflag : st'.nextTokenIsDirective = true := by
      rcases hdir hsp with h | ⟨pre, t, h, ht⟩
      · exact h
      · exact absurd ht (hs.last (e.trans h))
    show loopE ext {} ((s' ++ ['\n']) ++ b) = _
    rw [hap b, e]
    refine congrArg (out ++ ·) ?_
    refine laterE_loop hsh hx _ b (Nat.le_refl _) reach_init hesc hflag
      ⟨hsp, hr.space hsp, hd, by rw [hline], fun h => absurd rfl h, by simp, by simp, Or.inr ⟨Or.inl rfl, hw⟩⟩ hb

end Verif
