import Verif.Spec.Concat
import Verif.Spec.Grammar
import Verif.Proofs.LexBasic
/-!
# Lexing two texts one after the other
-/
namespace Verif
open Spec

/-- One character. -/
def lexStep (st : LexSt) (c : Char) : List Tok × Option LexSt :=
  if c = '\r' then ([], some st)
  else if c = '\\' ∧ st.esc = false then ([], some { st with esc := true })
  else lexSwitch { bump st c with esc := false } (if st.esc then ['\\', c] else [c])

theorem loop_step (st : LexSt) (c : Char) (cs : List Char) : loop st (c :: cs) = contin cs (lexStep st c) := by
  unfold lexStep
  split
  · rename_i h; rw [h, loop_cr]; rfl
  · rename_i h
    split
    · rename_i h2; rw [h2.1, loop_backslash _ _ h2.2]; rfl
    · rename_i h2
      cases he : st.esc with
      | true => rw [loop_esc st c cs he h]; simp
      | false =>
        rw [loop_plain st c cs he h (fun e => h2 ⟨e, he⟩)]; simp

/-- The tokens of the characters, and the state after them, unless the lexer stops. -/
def lexRun (st : LexSt) : List Char → List Tok × Option LexSt
  | [] => ([], some st)
  | c :: cs =>
    match lexStep st c with
    | (out, none) => (out, none)
    | (out, some st') => (out ++ (lexRun st' cs).1, (lexRun st' cs).2)

theorem loop_append (a b : List Char) : ∀ st, loop st (a ++ b) = contin b (lexRun st a) := by
  induction a with
  | nil => intro st; rfl
  | cons c a ih =>
    intro st
    rw [List.cons_append, loop_step, lexRun]
    rcases lexStep st c with ⟨out, _ | st'⟩
    · rfl
    · simp only [contin, ih]
      rcases lexRun st' a with ⟨out', _ | st''⟩ <;> simp [contin]

theorem lexRun_append (a b : List Char) : ∀ st, lexRun st (a ++ b) =
    match lexRun st a with
    | (out, none) => (out, none)
    | (out, some st') => (out ++ (lexRun st' b).1, (lexRun st' b).2) := by
  induction a with
  | nil => intro st; simp [lexRun]
  | cons c a ih =>
    intro st
    rw [List.cons_append, lexRun, lexRun]
    rcases lexStep st c with ⟨out, _ | st'⟩
    · rfl
    · simp only [ih]
      rcases lexRun st' a with ⟨out', _ | st''⟩ <;> simp

/-- The token of a word so far: not empty, and not the start of a comment or a special character. -/
def WordStart (s : Str) : Prop := ∃ c s', s = c :: s' ∧ c ≠ '#' ∧ c ≠ '{' ∧ c ≠ '}' ∧ c ≠ ';'

theorem WordStart.append {s : Str} (h : WordStart s) (t : Str) : WordStart (s ++ t) := by
  obtain ⟨c, s', rfl, h⟩ := h
  exact ⟨c, s' ++ t, rfl, h⟩

/-- The states the lexer comes to. -/
structure Reach (st : LexSt) : Prop where
  space : st.lexState = .skipSpace → st.token = []
  word : st.lexState = .inWord ∨ st.lexState = .inVar → WordStart st.token ∧ st.newToken = false
  quote : st.lexState = .inQuote → st.quote = ['"'] ∨ st.quote = ['\'']
  comment : st.lexState = .inComment → ∃ s, st.token = '#' :: s
  depth : 0 ≤ st.depth

theorem reach_init : Reach {} := ⟨fun _ => rfl, by simp, by simp, by simp, by decide⟩

theorem isSpecial_cases {la : Str} (h : isSpecial la = true) : la = ['{'] ∨ la = ['}'] ∨ la = [';'] := by
  simpa [isSpecial, or_assoc] using h

/-- The change of the depth by a special character. -/
def depthOf (la : Str) : Int := if la = ['{'] then 1 else if la = ['}'] then -1 else 0

/-- What a special character does. -/
theorem lexSpecial_eq (st : LexSt) {la : Str} (h : isSpecial la = true) :
    lexSpecial st la =
      if st.dupSpecialChar = true ∧ la ≠ ['}'] then
        ((if st.token.length > 0 then [st.emitTok st.tokenStartLine false none] else []) ++
          [⟨[], st.tokenStartLine, false, some (lexError (c!"unexpected \"" ++ la ++ c!"\"") st.tokenLine)⟩], none)
      else if la = ['}'] ∧ st.depth - 1 < 0 then
        ((if st.token.length > 0 then [st.emitTok st.tokenStartLine false none] else []) ++
          [⟨[], st.tokenStartLine, false, some (lexError c!"unexpected \"}\"" st.tokenLine)⟩], none)
      else
        ((if st.token.length > 0 then [st.emitTok st.tokenStartLine false none] else []) ++ [⟨la, st.tokenStartLine, false, none⟩],
          some { st with token := [], lexState := .skipSpace, dupSpecialChar := true, depth := st.depth + depthOf la, nextTokenIsDirective := true }) := by
  rcases st with ⟨tok, tl, tsl, ls, nt, dup, esc, depth, q, nd⟩
  rcases isSpecial_cases h with rfl | rfl | rfl <;> cases dup <;> cases tok <;>
    simp [lexSpecial, LexSt.emitTok, LexSt.reset, depthOf] <;> rfl

theorem reach_special {st st' : LexSt} {la : Str} {out : List Tok} (hl : isSpecial la = true) (hd : 0 ≤ st.depth) (h : lexSpecial st la = (out, some st')) :
    Reach st' := by
  rw [lexSpecial_eq st hl] at h
  split at h
  · cases h
  · split at h
    · cases h
    · rename_i hn
      cases h
      refine ⟨fun _ => rfl, by simp, by simp, by simp, ?_⟩
      show 0 ≤ st.depth + depthOf la
      rcases isSpecial_cases hl with rfl | rfl | rfl
      · simp [depthOf]; omega
      · simp at hn; simp [depthOf]; omega
      · simpa [depthOf] using hd

theorem reach_inWord {st st' : LexSt} {u : U} {out : List Tok} (hu : u.wf) (hs : st.lexState = .inWord)
    (hw : WordStart st.token ∧ st.newToken = false ∨ st.token = [] ∧ st.newToken = true ∧ (∀ c, u = .plain c → isSpaceRune c = false)) (hd : 0 ≤ st.depth)
    (h : lexInWord st u.text = (out, some st')) : Reach st' := by
  unfold lexInWord at h
  split at h
  · rename_i h1
    simp only [Bool.and_eq_true, beq_iff_eq] at h1
    cases h
    rcases hw with hw | hw
    · rw [hw.2] at h1; simp at h1
    · exact ⟨by simp, by simp, by simp, fun _ => ⟨[], by simp [hw.1, h1.2]⟩, hd⟩
  · rename_i hnot
    simp only at h
    split at h
    · cases h
      exact ⟨fun _ => rfl, by simp [LexSt.reset], by simp [LexSt.reset], by simp [LexSt.reset], hd⟩
    · rename_i hsp
      split at h
      · rename_i hv
        cases h
        rcases hw with hw | hw
        · exact ⟨by simp, fun _ => ⟨hw.1.append _, rfl⟩, by simp, by simp, hd⟩
        · simp [hw.1] at hv
      · split at h
        · rename_i hq
          split at h
          · rename_i hl
            cases h
            rcases hw with hw | hw
            · exact ⟨by simp [hs], fun _ => ⟨hw.1.append _, rfl⟩, by simp [hs], by simp [hs], hd⟩
            · simp [hw.1] at hl
          · cases h
            exact ⟨by simp, by simp, fun _ => by simpa using hq, by simp, hd⟩
        · split at h
          · rename_i hl
            exact reach_special (st := { st with newToken := false }) hl hd h
          · rename_i hq hsp2
            cases h
            refine ⟨by simp [hs], fun _ => ⟨?_, rfl⟩, by simp [hs], by simp [hs], hd⟩
            rcases hw with hw | hw
            · exact hw.1.append _
            · simp only [hw.1, List.nil_append]
              cases u with
              | plain c =>
                simp only [hw.2.1, U.text, Bool.true_and, beq_iff_eq, List.cons.injEq, and_true] at hnot
                simp only [isSpecial, U.text, Bool.or_eq_true, beq_iff_eq, List.cons.injEq, and_true, not_or] at hsp2
                exact ⟨c, [], rfl, hnot, hsp2.1.1, hsp2.1.2, hsp2.2⟩
              | esc c => exact ⟨'\\', [c], rfl, by decide, by decide, by decide, by decide⟩

theorem reach_switch {st st' : LexSt} {u : U} {out : List Tok} (hu : u.wf) (hr : Reach st) (h : lexSwitch st u.text = (out, some st')) : Reach st' := by
  unfold lexSwitch at h
  split at h
  · rename_i hs
    split at h
    · rename_i hsp
      refine reach_inWord (st := { st with lexState := .inWord, newToken := true, tokenStartLine := st.tokenLine }) (u := u) hu rfl (Or.inr ⟨hr.space hs, rfl, ?_⟩) hr.depth h
      rintro c rfl
      simpa [U.text, isSpace_single] using hsp
    · cases h; exact hr
  · rename_i hs
    exact reach_inWord hu hs (Or.inl (hr.word (Or.inl hs))) hr.depth h
  · rename_i hs
    split at h
    · cases h
      exact ⟨fun _ => rfl, by simp [LexSt.reset], by simp [LexSt.reset], by simp [LexSt.reset], hr.depth⟩
    · cases h
      obtain ⟨s, hc⟩ := hr.comment hs
      exact ⟨by simp [hs], by simp [hs], by simp [hs], fun _ => ⟨s ++ u.text, by simp [hc]⟩, hr.depth⟩
  · rename_i hs
    obtain ⟨h1, h2⟩ := hr.word (Or.inr hs)
    simp only at h
    split at h
    · cases h
      exact ⟨by simp [hs], fun _ => ⟨h1.append _, h2⟩, by simp [hs], by simp [hs], hr.depth⟩
    · cases h
      exact ⟨by simp, fun _ => ⟨h1.append _, h2⟩, by simp, by simp, hr.depth⟩
  · rename_i hs
    split at h
    · cases h
      exact ⟨fun _ => rfl, by simp [LexSt.reset], by simp [LexSt.reset], by simp [LexSt.reset], hr.depth⟩
    · cases h
      exact ⟨by simp [hs], by simp [hs], fun _ => hr.quote hs, by simp [hs], hr.depth⟩

theorem reach_bump {st : LexSt} (h : Reach st) (c : Char) (b : Bool) : Reach { bump st c with esc := b } := by
  unfold bump
  split <;> exact ⟨h.space, h.word, h.quote, h.comment, h.depth⟩

theorem lexStep_unit (st : LexSt) (c : Char) (h1 : c ≠ '\r') (h2 : ¬ (c = '\\' ∧ st.esc = false)) :
    ∃ u : U, u.wf ∧ u.char = c ∧ (st.esc = true ↔ u = .esc c) ∧ lexStep st c = lexSwitch { bump st c with esc := false } u.text := by
  unfold lexStep
  rw [if_neg h1, if_neg h2]
  cases he : st.esc with
  | true => exact ⟨.esc c, h1, rfl, by simp, by simp [U.text]⟩
  | false => exact ⟨.plain c, ⟨fun e => h2 ⟨e, he⟩, h1⟩, rfl, by simp, by simp [U.text]⟩

theorem reach_step {st st' : LexSt} {c : Char} {out : List Tok} (hr : Reach st) (h : lexStep st c = (out, some st')) : Reach st' := by
  by_cases h1 : c = '\r'
  · rw [lexStep, if_pos h1] at h; cases h; exact hr
  · by_cases h2 : c = '\\' ∧ st.esc = false
    · rw [lexStep, if_neg h1, if_pos h2] at h; cases h
      exact ⟨hr.space, hr.word, hr.quote, hr.comment, hr.depth⟩
    · obtain ⟨u, hu, -, -, e⟩ := lexStep_unit st c h1 h2
      rw [e] at h
      exact reach_switch hu (reach_bump hr c false) h

theorem reach_run {a : List Char} : ∀ {st st' : LexSt} {out : List Tok}, Reach st → lexRun st a = (out, some st') → Reach st' := by
  induction a with
  | nil => intro st st' out hr h; cases h; exact hr
  | cons c a ih =>
    intro st st' out hr h
    rw [lexRun] at h
    rcases hs : lexStep st c with ⟨o1, _ | st1⟩
    · rw [hs] at h; cases h
    · rw [hs] at h
      simp only [Prod.mk.injEq] at h
      exact ih (out := (lexRun st1 a).1) (reach_step hr hs) (Prod.ext rfl h.2)

/-! ## The same, some lines later -/

/-- The states are the same, but for lines, the depth, and what is set before it is used; the first one allows at least as much, or the second one is at the
start of a text, where no special character comes. -/
structure Later (n k : Int) (st1 st2 : LexSt) (toks : List Tok) : Prop where
  state : st1.lexState = st2.lexState
  token : st1.token = st2.token
  depth : st1.depth = st2.depth + k
  line : st1.tokenLine = st2.tokenLine + n
  start : st2.lexState ≠ .skipSpace → st1.tokenStartLine = st2.tokenStartLine + n
  newToken : st2.lexState = .inWord ∨ st2.lexState = .inVar → st1.newToken = st2.newToken
  quote : st2.lexState = .inQuote → st1.quote = st2.quote
  dup : (st1.dupSpecialChar = true → st2.dupSpecialChar = true) ∨ (st2.lexState = .skipSpace ∨ st2.lexState = .inComment) ∧ StartsWithWord toks

theorem StartsWithWord.tail {t : Tok} {toks : List Tok} {text : Str} (h : StartsWithWord (t :: toks)) (ht : CommentTok t text) : StartsWithWord toks := by
  intro cs t' rest e hcs
  refine h (t :: cs) t' rest (by rw [e]; rfl) ?_
  intro c hc
  rcases List.mem_cons.mp hc with rfl | hc
  · exact ⟨text, ht⟩
  · exact hcs c hc

theorem startsWithWord_special {la : Str} {l : Int} {toks : List Tok} (hl : isSpecial la = true) (h : StartsWithWord (⟨la, l, false, none⟩ :: toks)) : False := by
  refine h [] _ toks rfl (by simp) ?_
  rcases isSpecial_cases hl with rfl | rfl | rfl
  · exact Or.inl ⟨rfl, rfl⟩
  · exact Or.inr (Or.inl ⟨rfl, rfl⟩)
  · exact Or.inr (Or.inr ⟨rfl, rfl⟩)

theorem later_special {n k : Int} {st1 st2 st2' : LexSt} {la : Str} {out R : List Tok} (hla : isSpecial la = true)
    (ht : st1.token = st2.token) (hk0 : 0 ≤ k) (hd : st1.depth = st2.depth + k) (hl : st1.tokenLine = st2.tokenLine + n) (hs : st1.tokenStartLine = st2.tokenStartLine + n)
    (hdup : (st1.dupSpecialChar = true → st2.dupSpecialChar = true) ∨ st2.token = [] ∧ StartsWithWord (out ++ R))
    (h : lexSpecial st2 la = (out, some st2')) :
    ∃ st1', lexSpecial st1 la = (out.map (laterTok n), some st1') ∧ Later n k st1' st2' R := by
  rw [lexSpecial_eq st2 hla] at h
  split at h
  · cases h
  · rename_i hdup2
    split at h
    · cases h
    · rename_i hdep
      cases h
      rcases hdup with hdup | ⟨ht0, hsw⟩
      · refine ⟨{ st1 with token := [], lexState := .skipSpace, dupSpecialChar := true, depth := st1.depth + depthOf la, nextTokenIsDirective := true }, ?_,
          ⟨rfl, rfl, by simp [hd]; omega, hl, fun _ => hs, by simp, by simp, Or.inl id⟩⟩
        rw [lexSpecial_eq st1 hla, if_neg (fun h => hdup2 ⟨hdup h.1, h.2⟩), hd, if_neg (fun h => hdep ⟨h.1, by have := h.2; omega⟩), ht]
        split <;> simp [LexSt.emitTok, laterTok, hs, ht]
      · rw [ht0] at hsw
        exact (startsWithWord_special hla (by simpa using hsw)).elim

theorem later_inWord {n k : Int} {st1 st2 st2' : LexSt} {u : U} {out R : List Tok} (h1 : st1.lexState = .inWord) (h2 : st2.lexState = .inWord)
    (ht : st1.token = st2.token) (hk0 : 0 ≤ k) (hd : st1.depth = st2.depth + k) (hl : st1.tokenLine = st2.tokenLine + n) (hs : st1.tokenStartLine = st2.tokenStartLine + n)
    (hn : st1.newToken = st2.newToken)
    (hdup : (st1.dupSpecialChar = true → st2.dupSpecialChar = true) ∨ st2.token = [] ∧ isSpace u.text = false ∧ StartsWithWord (out ++ R))
    (h : lexInWord st2 u.text = (out, some st2')) :
    ∃ st1', lexInWord st1 u.text = (out.map (laterTok n), some st1') ∧ Later n k st1' st2' R := by
  rcases st1 with ⟨tok1, tl1, tsl1, ls1, nt1, dup1, esc1, depth1, q1, nd1⟩
  rcases st2 with ⟨tok2, tl2, tsl2, ls2, nt2, dup2, esc2, depth2, q2, nd2⟩
  simp only at h1 h2 ht hd hl hs hn hdup
  subst h1 h2 ht hd hl hs hn
  unfold lexInWord at h ⊢
  split at h
  · rename_i hc
    rw [if_pos hc]
    cases h
    refine ⟨_, rfl, ⟨rfl, rfl, rfl, rfl, fun _ => rfl, by simp, by simp, ?_⟩⟩
    rcases hdup with h | h
    · exact Or.inl h
    · exact Or.inr ⟨Or.inr rfl, h.2.2⟩
  · rename_i hc
    rw [if_neg hc]
    simp only at h ⊢
    split at h
    · rename_i hsp
      rw [if_pos hsp]
      cases h
      refine ⟨_, rfl, ⟨rfl, rfl, rfl, rfl, fun _ => rfl, by simp [LexSt.reset], by simp [LexSt.reset], ?_⟩⟩
      rcases hdup with h | h
      · exact Or.inl h
      · rw [h.2.1] at hsp; cases hsp
    · rename_i hsp
      rw [if_neg hsp]
      split at h
      · rename_i hv
        rw [if_pos hv]
        cases h
        exact ⟨_, rfl, ⟨rfl, rfl, rfl, rfl, fun _ => rfl, by simp, by simp, Or.inl id⟩⟩
      · rename_i hv
        rw [if_neg hv]
        split at h
        · rename_i hq
          rw [if_pos hq]
          split at h
          · rename_i hlen
            rw [if_pos hlen]
            cases h
            exact ⟨_, rfl, ⟨rfl, rfl, rfl, rfl, fun _ => rfl, by simp, by simp, Or.inl id⟩⟩
          · rename_i hlen
            rw [if_neg hlen]
            cases h
            exact ⟨_, rfl, ⟨rfl, rfl, rfl, rfl, fun _ => rfl, by simp, by simp, Or.inl id⟩⟩
        · rename_i hq
          rw [if_neg hq]
          split at h
          · rename_i hspec
            rw [if_pos hspec]
            exact later_special (st1 := ⟨tok1, tl2 + n, tsl2 + n, .inWord, false, dup1, esc1, depth2 + k, q1, nd1⟩)
              (st2 := ⟨tok1, tl2, tsl2, .inWord, false, dup2, esc2, depth2, q2, nd2⟩) hspec rfl hk0 rfl rfl rfl (hdup.imp_right fun k' => ⟨k'.1, k'.2.2⟩) h
          · rename_i hspec
            rw [if_neg hspec]
            cases h
            exact ⟨_, rfl, ⟨rfl, rfl, rfl, rfl, fun _ => rfl, by simp, by simp, Or.inl id⟩⟩

theorem later_switch {n k : Int} (hk0 : 0 ≤ k) {st1 st2 st2' : LexSt} {u : U} {out R : List Tok} (hr : Reach st2)
    (hk : Later n k st1 st2 (out ++ R)) (h : lexSwitch st2 u.text = (out, some st2')) :
    ∃ st1', lexSwitch st1 u.text = (out.map (laterTok n), some st1') ∧ Later n k st1' st2' R := by
  have hdup := hk.dup
  unfold lexSwitch at h ⊢
  rw [hk.state]
  split at h
  · rename_i hs
    split at h
    · rename_i hsp
      rw [if_pos hsp]
      refine later_inWord (st1 := { st1 with lexState := .inWord, newToken := true, tokenStartLine := st1.tokenLine })
        (st2 := { st2 with lexState := .inWord, newToken := true, tokenStartLine := st2.tokenLine }) rfl rfl hk.token hk0 hk.depth hk.line hk.line rfl ?_ h
      exact hdup.imp_right fun k => ⟨hr.space hs, by simpa using hsp, k.2⟩
    · rename_i hsp
      rw [if_neg hsp]
      cases h
      exact ⟨_, rfl, hk.state, hk.token, hk.depth, hk.line, hk.start, hk.newToken, hk.quote, by simpa using hdup⟩
  · rename_i hs
    refine later_inWord (hk.state.trans hs) hs hk.token hk0 hk.depth hk.line (hk.start (by simp [hs])) (hk.newToken (Or.inl hs)) (Or.inl ?_) h
    rcases hdup with h | h
    · exact h
    · simp [hs] at h
  · rename_i hs
    have hst := hk.start (by simp [hs])
    split at h
    · rename_i he
      rw [if_pos he]
      cases h
      refine ⟨st1.reset, by simp [LexSt.emitTok, laterTok, hk.token, hst], ⟨rfl, rfl, hk.depth, hk.line, fun _ => hst, by simp [LexSt.reset], by simp [LexSt.reset], ?_⟩⟩
      refine hdup.imp id fun k => ⟨Or.inl rfl, ?_⟩
      obtain ⟨s, hc⟩ := hr.comment hs
      exact StartsWithWord.tail (text := s) k.2 ⟨rfl, hc⟩
    · rename_i he
      rw [if_neg he]
      cases h
      refine ⟨_, rfl, ⟨by simp [hk.state], by simp [hk.token], hk.depth, hk.line, fun _ => hst, by simp [hs], by simp [hs], ?_⟩⟩
      exact hdup.imp id fun k => ⟨Or.inr hs, by simpa using k.2⟩
  · rename_i hs
    have hst := hk.start (by simp [hs])
    have hd : st1.dupSpecialChar = true → st2.dupSpecialChar = true := by
      rcases hdup with h | h
      · exact h
      · simp [hs] at h
    simp only at h ⊢
    rw [hk.token]
    split at h
    · rename_i he
      rw [if_pos he]
      cases h
      exact ⟨_, rfl, ⟨rfl, rfl, hk.depth, hk.line, fun _ => hst, fun _ => hk.newToken (Or.inr hs), by simp [hs], Or.inl hd⟩⟩
    · rename_i he
      rw [if_neg he]
      cases h
      exact ⟨_, rfl, ⟨rfl, rfl, hk.depth, hk.line, fun _ => hst, fun _ => hk.newToken (Or.inr hs), by simp, Or.inl hd⟩⟩
  · rename_i hs
    have hst := hk.start (by simp [hs])
    have hd : st1.dupSpecialChar = true → st2.dupSpecialChar = true := by
      rcases hdup with h | h
      · exact h
      · simp [hs] at h
    rw [hk.quote hs]
    split at h
    · rename_i he
      rw [if_pos he]
      cases h
      exact ⟨st1.reset, by simp [LexSt.emitTok, laterTok, hk.token, hst], ⟨rfl, rfl, hk.depth, hk.line, fun _ => hst, by simp [LexSt.reset], by simp [LexSt.reset], Or.inl hd⟩⟩
    · rename_i he
      rw [if_neg he]
      cases h
      exact ⟨_, rfl, ⟨rfl, by simp [hk.token], hk.depth, hk.line, fun _ => hst, by simp [hs], fun _ => rfl, Or.inl hd⟩⟩

theorem esc_special {st st' : LexSt} {la : Str} {out : List Tok} (hl : isSpecial la = true) (h : lexSpecial st la = (out, some st')) :
    st'.esc = st.esc ∧ st'.tokenLine = st.tokenLine := by
  rw [lexSpecial_eq st hl] at h
  split at h
  · cases h
  · split at h
    · cases h
    · cases h; exact ⟨rfl, rfl⟩

theorem esc_inWord {st st' : LexSt} {la : Str} {out : List Tok} (h : lexInWord st la = (out, some st')) : st'.esc = st.esc ∧ st'.tokenLine = st.tokenLine := by
  unfold lexInWord at h
  split at h
  · cases h; exact ⟨rfl, rfl⟩
  · simp only at h
    split at h
    · cases h; exact ⟨rfl, rfl⟩
    · split at h
      · cases h; exact ⟨rfl, rfl⟩
      · split at h
        · split at h <;> (cases h; exact ⟨rfl, rfl⟩)
        · split at h
          · rename_i hl
            obtain ⟨h1, h2⟩ := esc_special (st := { st with newToken := false }) hl h
            exact ⟨h1, h2⟩
          · cases h; exact ⟨rfl, rfl⟩

theorem esc_switch {st st' : LexSt} {la : Str} {out : List Tok} (h : lexSwitch st la = (out, some st')) : st'.esc = st.esc ∧ st'.tokenLine = st.tokenLine := by
  unfold lexSwitch at h
  split at h
  · split at h
    · obtain ⟨h1, h2⟩ := esc_inWord (st := { st with lexState := .inWord, newToken := true, tokenStartLine := st.tokenLine }) h
      exact ⟨h1, h2⟩
    · cases h; exact ⟨rfl, rfl⟩
  · exact esc_inWord h
  · split at h <;> (cases h; exact ⟨rfl, rfl⟩)
  · simp only at h
    split at h <;> (cases h; exact ⟨rfl, rfl⟩)
  · split at h <;> (cases h; exact ⟨rfl, rfl⟩)

/-- The lexer stops only after an error. -/
theorem stop_special {st : LexSt} {la : Str} {out : List Tok} (hl : isSpecial la = true) (h : lexSpecial st la = (out, none)) : ∃ t ∈ out, t.error ≠ none := by
  rw [lexSpecial_eq st hl] at h
  split at h
  · cases h
    exact ⟨_, List.mem_append_right _ (List.mem_singleton.mpr rfl), by simp⟩
  · split at h
    · cases h
      exact ⟨_, List.mem_append_right _ (List.mem_singleton.mpr rfl), by simp⟩
    · cases h

theorem stop_inWord {st : LexSt} {la : Str} {out : List Tok} (h : lexInWord st la = (out, none)) : ∃ t ∈ out, t.error ≠ none := by
  unfold lexInWord at h
  split at h
  · cases h
  · simp only at h
    split at h
    · cases h
    · split at h
      · cases h
      · split at h
        · split at h <;> cases h
        · split at h
          · rename_i hl
            exact stop_special hl h
          · cases h

theorem stop_switch {st : LexSt} {la : Str} {out : List Tok} (h : lexSwitch st la = (out, none)) : ∃ t ∈ out, t.error ≠ none := by
  unfold lexSwitch at h
  split at h
  · split at h
    · exact stop_inWord h
    · cases h
  · exact stop_inWord h
  · split at h <;> cases h
  · simp only at h
    split at h <;> cases h
  · split at h <;> cases h

theorem stop_step {st : LexSt} {c : Char} {out : List Tok} (h : lexStep st c = (out, none)) : ∃ t ∈ out, t.error ≠ none := by
  unfold lexStep at h
  split at h
  · cases h
  · split at h
    · cases h
    · exact stop_switch h

theorem stop_run {a : List Char} : ∀ {st : LexSt} {out : List Tok}, lexRun st a = (out, none) → ∃ t ∈ out, t.error ≠ none := by
  induction a with
  | nil => intro st out h; cases h
  | cons c a ih =>
    intro st out h
    rw [lexRun] at h
    rcases hs : lexStep st c with ⟨o1, _ | st1⟩
    · rw [hs] at h; cases h
      exact stop_step hs
    · rw [hs] at h
      simp only [Prod.mk.injEq] at h
      obtain ⟨t, ht, he⟩ := ih (st := st1) (out := (lexRun st1 a).1) (Prod.ext rfl h.2)
      exact ⟨t, by rw [← h.1]; exact List.mem_append_right _ ht, he⟩

theorem later_finish {n : Int} {st1 st2 : LexSt} {toks : List Tok} (hr : Reach st2) (hk : Later n 0 st1 st2 toks) (he : ∀ t ∈ lexFinish st2, t.error = none) :
    lexFinish st1 = (lexFinish st2).map (laterTok n) := by
  have hd : ¬ st2.depth > 0 := by
    intro h
    have := he ⟨(if st2.token.length > 0 then st2.reset else st2).token, (if st2.token.length > 0 then st2.reset else st2).tokenStartLine, false,
      some (lexError c!"unexpected end of file, expecting \"}\"" (if st2.token.length > 0 then st2.reset else st2).tokenLine)⟩ (by
        unfold lexFinish
        refine List.mem_append_right _ ?_
        rw [if_pos (by split <;> exact h)]
        exact List.mem_singleton.mpr rfl)
    simp at this
  have e : ∀ st : LexSt, ¬ st.depth > 0 → lexFinish st = if st.token.length > 0 then [st.emitTok st.tokenStartLine (st.lexState == .inQuote) none] else [] := by
    intro st h
    unfold lexFinish
    simp only
    rw [if_neg (show ¬ (if st.token.length > 0 then st.reset else st).depth > 0 by split <;> exact h), List.append_nil]
  rw [e st2 hd, e st1 (by rw [hk.depth, Int.add_zero]; exact hd), hk.token]
  split
  · rename_i hl
    have hs : st2.lexState ≠ .skipSpace := by
      intro h
      rw [hr.space h] at hl
      simp at hl
    simp [LexSt.emitTok, laterTok, hk.token, hk.state, hk.start hs]
  · rfl

/-- One character more. -/
theorem later_step {n k : Int} (hk0 : 0 ≤ k) {c : Char} {cs : List Char} {st1 st2 : LexSt} (hr : Reach st2) (he : st1.esc = st2.esc)
    (hk : Later n k st1 st2 (loop st2 (c :: cs))) (hn : ∀ t ∈ loop st2 (c :: cs), t.error = none) :
    ∃ out st1' st2', lexStep st2 c = (out, some st2') ∧ lexStep st1 c = (out.map (laterTok n), some st1') ∧ st1'.esc = st2'.esc ∧
      Later n k st1' st2' (loop st2' cs) := by
  by_cases h1 : c = '\r'
  · subst h1
    rw [loop_cr] at hn hk
    exact ⟨[], st1, st2, by simp [lexStep], by simp [lexStep], he, hk⟩
  · by_cases h2 : c = '\\' ∧ st2.esc = false
    · have h2' : c = '\\' ∧ st1.esc = false := ⟨h2.1, he.trans h2.2⟩
      refine ⟨[], { st1 with esc := true }, { st2 with esc := true }, by rw [lexStep, if_neg h1, if_pos h2], by rw [lexStep, if_neg h1, if_pos h2']; rfl, rfl, ?_⟩
      rw [h2.1, loop_backslash _ _ h2.2] at hk
      exact ⟨hk.state, hk.token, hk.depth, hk.line, hk.start, hk.newToken, hk.quote, hk.dup⟩
    · obtain ⟨u, hu, hc, hue, e2⟩ := lexStep_unit st2 c h1 h2
      have e1 : lexStep st1 c = lexSwitch { bump st1 c with esc := false } u.text := by
        unfold lexStep
        rw [if_neg h1, if_neg (by rw [he]; exact h2), he]
        have e3 := e2
        unfold lexStep at e3
        rw [if_neg h1, if_neg h2] at e3
        congr 1
        cases h : st2.esc with
        | true => rw [hue.mp h]; simp [U.text]
        | false =>
          cases u with
          | plain c' => simp only [U.char] at hc; subst hc; simp [U.text]
          | esc c' =>
            simp only [U.char] at hc; subst hc
            rw [hue.mpr rfl] at h; cases h
      rw [loop_step] at hn hk
      rw [e2] at hn hk
      have hk' : Later n k { bump st1 c with esc := false } { bump st2 c with esc := false }
          (contin cs (lexSwitch { bump st2 c with esc := false } u.text)) := by
        unfold bump at hk ⊢
        split
        · rename_i hnl
          rw [if_pos hnl] at hk
          exact ⟨hk.state, hk.token, hk.depth, by simp [hk.line]; omega, hk.start, hk.newToken, hk.quote, hk.dup⟩
        · rename_i hnl
          rw [if_neg hnl] at hk
          exact ⟨hk.state, hk.token, hk.depth, hk.line, hk.start, hk.newToken, hk.quote, hk.dup⟩
      rcases hsw : lexSwitch { bump st2 c with esc := false } u.text with ⟨out, _ | st2'⟩
      · rw [hsw] at hn
        obtain ⟨t, ht, hte⟩ := stop_switch hsw
        exact absurd (hn t ht) hte
      · rw [hsw] at hk'
        obtain ⟨st1', f1, f2⟩ := later_switch hk0 (reach_bump hr c false) hk' hsw
        exact ⟨out, st1', st2', by rw [e2, hsw], by rw [e1, f1], (esc_switch f1).1.trans (esc_switch hsw).1.symm, f2⟩

theorem later_loop {n : Int} : ∀ (s : List Char) {st1 st2 : LexSt}, Reach st2 → st1.esc = st2.esc → Later n 0 st1 st2 (loop st2 s) →
    (∀ t ∈ loop st2 s, t.error = none) → loop st1 s = (loop st2 s).map (laterTok n) := by
  intro s
  induction s with
  | nil =>
    intro st1 st2 hr he hk hn
    rw [loop_nil] at hn hk ⊢
    rw [loop_nil]
    exact later_finish hr hk hn
  | cons c cs ih =>
    intro st1 st2 hr he hk hn
    obtain ⟨out, st1', st2', f2, f1, f3, f4⟩ := later_step (by omega) hr he hk hn
    rw [loop_step, loop_step, f1, f2]
    rw [loop_step, f2] at hn
    simp only [contin, List.map_append] at hn ⊢
    rw [ih (reach_step hr f2) f3 f4 (fun t ht => hn t (List.mem_append_right _ ht))]

theorem later_run {n k : Int} (hk0 : 0 ≤ k) : ∀ (s : List Char) {st1 st2 : LexSt}, Reach st2 → st1.esc = st2.esc → Later n k st1 st2 (loop st2 s) →
    (∀ t ∈ loop st2 s, t.error = none) → ∃ out st1' st2', lexRun st2 s = (out, some st2') ∧ lexRun st1 s = (out.map (laterTok n), some st1') ∧
      st1'.esc = st2'.esc ∧ Later n k st1' st2' (lexFinish st2') := by
  intro s
  induction s with
  | nil =>
    intro st1 st2 hr he hk hn
    rw [loop_nil] at hk
    exact ⟨[], st1, st2, rfl, rfl, he, hk⟩
  | cons c cs ih =>
    intro st1 st2 hr he hk hn
    obtain ⟨out, st1', st2', f2, f1, f3, f4⟩ := later_step hk0 hr he hk hn
    rw [loop_step, f2] at hn
    obtain ⟨out2, st1'', st2'', g2, g1, g3, g4⟩ := ih (reach_step hr f2) f3 f4 (fun t ht => hn t (List.mem_append_right _ ht))
    exact ⟨out ++ out2, st1'', st2'', by rw [lexRun, f2]; simp only [g2], by rw [lexRun, f1]; simp only [g1, List.map_append], g3, g4⟩

/-! ## The lines, and the state after a line feed -/

theorem line_step {st st' : LexSt} {c : Char} {out : List Tok} (h : lexStep st c = (out, some st')) : st'.tokenLine = st.tokenLine + nls [c] := by
  unfold lexStep at h
  split at h
  · rename_i hc
    cases h
    rw [hc, nls_single, if_neg (by decide)]; omega
  · split at h
    · rename_i hc
      cases h
      rw [hc.1, nls_single, if_neg (by decide)]
      show st.tokenLine = _
      omega
    · rw [(esc_switch h).2]
      show (bump st c).tokenLine = _
      unfold bump
      rw [nls_single]
      by_cases hc : c = '\n'
      · simp [hc]
      · simp [hc]

theorem line_run {a : List Char} : ∀ {st st' : LexSt} {out : List Tok}, lexRun st a = (out, some st') → st'.tokenLine = st.tokenLine + nls a := by
  induction a with
  | nil => intro st st' out h; cases h; simp [nls_nil]
  | cons c a ih =>
    intro st st' out h
    rw [lexRun] at h
    rcases hs : lexStep st c with ⟨o1, _ | st1⟩
    · rw [hs] at h; cases h
    · rw [hs] at h
      simp only [Prod.mk.injEq] at h
      rw [ih (out := (lexRun st1 a).1) (Prod.ext rfl h.2), line_step hs, show c :: a = [c] ++ a from rfl, nls_append]
      omega

/-- The state after a line feed. -/
theorem nl_step {st st' : LexSt} {out : List Tok} (hr : Reach st) (h : lexStep st '\n' = (out, some st')) :
    st'.esc = false ∧ st'.lexState ≠ .inComment ∧ (st'.lexState = .inQuote → st'.token ≠ []) := by
  obtain ⟨u, hu, hc, -, e⟩ := lexStep_unit st '\n' (by decide) (by simp)
  rw [e] at h
  have hr' := reach_bump hr '\n' false
  refine ⟨(esc_switch h).1, ?_⟩
  generalize { bump st '\n' with esc := false } = st0 at h hr'
  have hne : u.text ≠ ['#'] ∧ u.text ≠ ['"'] ∧ u.text ≠ ['\''] ∧ isSpecial u.text = false := by
    cases u <;> (simp only [U.char] at hc; subst hc; decide)
  have key : ∀ st1 : LexSt, st1.lexState = .inWord → lexInWord st1 u.text = (out, some st') →
      st'.lexState ≠ .inComment ∧ (st'.lexState = .inQuote → st'.token ≠ []) := by
    intro st1 h1 h
    unfold lexInWord at h
    rw [if_neg (by simp [hne.1])] at h
    simp only at h
    split at h
    · cases h; simp [LexSt.reset]
    · split at h
      · cases h; simp
      · rw [if_neg (by simp [hne.2.1, hne.2.2.1]), if_neg (by simp [hne.2.2.2])] at h
        cases h
        simp [h1]
  unfold lexSwitch at h
  split at h
  · rename_i hs
    split at h
    · exact key _ rfl h
    · cases h
      simp [hs]
  · rename_i hs
    exact key _ hs h
  · rename_i hs
    rw [isEOL_unit, hc] at h
    rw [if_pos (by decide)] at h
    cases h
    simp [LexSt.reset]
  · rename_i hs
    simp only at h
    split at h <;> (cases h; simp [hs])
  · rename_i hs
    split at h
    · cases h; simp [LexSt.reset]
    · cases h
      refine ⟨by simp [hs], fun _ => ?_⟩
      have hq := hr'.quote hs
      split
      · rcases hq with hq | hq <;> simp [hq]
      · have := text_ne_nil u
        simp [this]

theorem Spec.Shape.last {toks : List Tok} (h : Shape toks) : ∀ {pre : List Tok} {t : Tok}, toks = pre ++ [t] → ¬ WordTok t := by
  have key : ∀ {a b : List Tok} {x t : Tok} {pre : List Tok}, a ++ x :: b = pre ++ [t] → (b = [] ∧ x = t) ∨ ∃ pre', b = pre' ++ [t] := by
    intro a b x t pre e
    rcases List.eq_nil_or_concat b with rfl | ⟨b', y, rfl⟩
    · exact Or.inl ⟨rfl, (List.append_inj' e rfl).2 |> fun k => (List.cons.inj k).1⟩
    · rw [List.concat_eq_append] at e ⊢
      have : (a ++ x :: b') ++ [y] = pre ++ [t] := by rw [← e]; simp
      obtain ⟨-, k⟩ := List.append_inj' this rfl
      obtain rfl : y = t := (List.cons.inj k).1
      exact Or.inr ⟨b', rfl⟩
  induction h with
  | nil => intro pre t e; simp at e
  | comment ht _ ih =>
    intro pre t e
    rcases key (a := []) e with ⟨-, rfl⟩ | ⟨pre', e⟩
    · exact fun hw => hw.1 _ ht
    · exact ih e
  | @simple t0 mid args texts semi toks _ _ hsemi _ ih =>
    intro pre t e
    rcases key (a := t0 :: mid) e with ⟨-, rfl⟩ | ⟨pre', e⟩
    · exact fun hw => hw.2.2.2 hsemi
    · exact ih e
  | @block t0 mid args texts opening inner closing toks _ _ _ _ hc _ _ ih =>
    intro pre t e
    rcases key (a := t0 :: (mid ++ opening :: inner)) (x := closing) (b := toks) (pre := pre) (t := t) (by rw [← e]; simp) with ⟨-, rfl⟩ | ⟨pre', e⟩
    · exact fun hw => hw.2.2.1 hc
    · exact ih e

theorem laterTok_zero : laterTok 0 = id := by
  funext t
  simp [laterTok]

/-- Lexing whole lines of statements, then more statements. -/
theorem lex_append {a b : Str} (ha : WholeLines a) (he : ∀ t ∈ lex a, t.error = none) (hs : Shape (lex a)) (hb : ∀ t ∈ lex b, t.error = none)
    (hw : StartsWithWord (lex b)) : lex (a ++ b) = lex a ++ (lex b).map (laterTok (nls a)) := by
  rcases ha with rfl | ⟨s', rfl⟩
  · rw [nls_nil, laterTok_zero]
    have : lex [] = [] := by decide
    rw [this]; simp
  · rcases hrun : lexRun {} (s' ++ ['\n']) with ⟨out, _ | st'⟩
    · have e : lex (s' ++ ['\n']) = out := by
        rw [lex_eq_loop, ← List.append_nil (s' ++ ['\n']), loop_append, hrun]; rfl
      obtain ⟨t, ht, hte⟩ := stop_run hrun
      exact absurd (he t (by rw [e]; exact ht)) hte
    · have e : lex (s' ++ ['\n']) = out ++ lexFinish st' := by
        rw [lex_eq_loop, ← List.append_nil (s' ++ ['\n']), loop_append, hrun]
        simp [contin, loop_nil]
      have hr : Reach st' := reach_run reach_init hrun
      have hline := line_run hrun
      obtain ⟨st0, out2, hr0, hstep⟩ : ∃ st0 out2, Reach st0 ∧ lexStep st0 '\n' = (out2, some st') := by
        rw [lexRun_append] at hrun
        rcases h1 : lexRun {} s' with ⟨o1, _ | st0⟩
        · rw [h1] at hrun; cases hrun
        · rw [h1] at hrun
          refine ⟨st0, (lexStep st0 '\n').1, reach_run reach_init h1, ?_⟩
          simp only [lexRun] at hrun
          rcases h2 : lexStep st0 '\n' with ⟨o2, _ | st2⟩
          · rw [h2] at hrun; simp at hrun
          · rw [h2] at hrun; simp at hrun
            rw [hrun.2]
      obtain ⟨hesc, hnc, hnq⟩ := nl_step hr0 hstep
      have hd : st'.depth = 0 := by
        have h1 := hr.depth
        have h2 : ¬ st'.depth > 0 := by
          intro h
          have := he ⟨(if st'.token.length > 0 then st'.reset else st').token, (if st'.token.length > 0 then st'.reset else st').tokenStartLine, false,
            some (lexError c!"unexpected end of file, expecting \"}\"" (if st'.token.length > 0 then st'.reset else st').tokenLine)⟩ (by
              rw [e]
              unfold lexFinish
              refine List.mem_append_right _ (List.mem_append_right _ ?_)
              rw [if_pos (by split <;> exact h)]
              exact List.mem_singleton.mpr rfl)
          simp at this
        omega
      have hsp : st'.lexState = .skipSpace := by
        by_contra hne
        have htok : st'.token ≠ [] ∧ (st'.lexState ≠ .inQuote → WordStart st'.token) := by
          cases hl : st'.lexState with
          | skipSpace => exact absurd hl hne
          | inComment => exact absurd hl hnc
          | inQuote => exact ⟨hnq hl, by simp⟩
          | inWord =>
            obtain ⟨⟨c, s, h, h'⟩, -⟩ := hr.word (Or.inl hl)
            exact ⟨by simp [h], fun _ => ⟨c, s, h, h'⟩⟩
          | inVar =>
            obtain ⟨⟨c, s, h, h'⟩, -⟩ := hr.word (Or.inr hl)
            exact ⟨by simp [h], fun _ => ⟨c, s, h, h'⟩⟩
        have hlen : st'.token.length > 0 := List.length_pos_iff.mpr htok.1
        have hfin : lexFinish st' = [st'.emitTok st'.tokenStartLine (st'.lexState == .inQuote) none] := by
          unfold lexFinish
          simp only [if_pos hlen]
          rw [if_neg (by show ¬ st'.depth > 0; omega)]
          rfl
        rw [hfin] at e
        refine hs.last e ?_
        by_cases hq : st'.lexState = .inQuote
        · have : (st'.emitTok st'.tokenStartLine (st'.lexState == .inQuote) none).quoted = true := by simp [LexSt.emitTok, hq]
          refine ⟨fun _ h => ?_, fun h => ?_, fun h => ?_, fun h => ?_⟩ <;> (rw [h.1] at this; cases this)
        · obtain ⟨c, s, h, h1, h2, h3, h4⟩ := htok.2 hq
          have hv : (st'.emitTok st'.tokenStartLine (st'.lexState == .inQuote) none).value = c :: s := h
          refine ⟨fun _ h => ?_, fun h => ?_, fun h => ?_, fun h => ?_⟩ <;>
            (have := h.2; rw [hv] at this; simp_all)
      have hfin : lexFinish st' = [] := by
        unfold lexFinish
        simp [hr.space hsp, hd]
      rw [hfin, List.append_nil] at e
      rw [lex_eq_loop (_ ++ b), loop_append, hrun, e, contin]
      refine congrArg (out ++ ·) ?_
      refine later_loop b reach_init hesc ⟨hsp, hr.space hsp, hd, by rw [hline], fun h => absurd rfl h, by simp, by simp, Or.inr ⟨Or.inl rfl, hw⟩⟩ hb

end Verif
