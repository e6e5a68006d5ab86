import Verif.Proofs.LexBasic
/-!
# The lexer on a sequence of items
-/
namespace Verif
open Spec

/-- The part of the state shared by all situations. -/
structure Core (st : LexSt) (line start : Int) (depth : Nat) (dup : Bool) : Prop where
  tokenLine : st.tokenLine = line
  startLine : st.tokenStartLine = start
  depth : st.depth = depth
  dup : st.dupSpecialChar = dup
  esc : st.esc = false

/-- Between tokens. -/
structure Ready (st : LexSt) (line start : Int) (depth : Nat) (dup : Bool) : Prop extends
    Core st line start depth dup where
  state : st.lexState = .skipSpace
  token : st.token = []

/-- In a word: the characters so far are `tok`. -/
structure InWord (st : LexSt) (p : WordPos) (tok : Str) (line start : Int) (depth : Nat) : Prop extends
    Core st line start depth false where
  state : st.lexState = (match p with | .out _ => .inWord | .var => .inVar)
  token : st.token = tok
  tokNe : tok ≠ []
  newToken : st.newToken = false
  dollar : (match p with | .out d => hasSuffix tok ['$'] = d | .var => True)

theorem bump_core {st : LexSt} {line start : Int} {depth : Nat} {dup : Bool} (h : Core st line start depth dup)
    (c : Char) : Core (bump st c) (line + nls [c]) start depth dup := by
  rcases h with ⟨h1, h2, h3, h4, h5⟩
  rw [nls_single]
  unfold bump
  by_cases hc : c = '\n' <;> constructor <;> simp_all

theorem bump_lexState (st : LexSt) (c : Char) : (bump st c).lexState = st.lexState := by unfold bump; split <;> rfl
theorem bump_token (st : LexSt) (c : Char) : (bump st c).token = st.token := by unfold bump; split <;> rfl
theorem bump_newToken (st : LexSt) (c : Char) : (bump st c).newToken = st.newToken := by unfold bump; split <;> rfl
theorem bump_quote (st : LexSt) (c : Char) : (bump st c).quote = st.quote := by unfold bump; split <;> rfl

theorem nls_char (u : U) : nls [u.char] = nls u.text := by rw [nls_single, nls_unit]

theorem ready_space {st line start depth dup} (h : Ready st line start depth dup) {c : Char} (hs : isSpaceRune c = true)
    (hc : c ≠ '\r') (cs : List Char) :
    ∃ st', loop st (c :: cs) = loop st' cs ∧ Ready st' (line + nls [c]) start depth dup := by
  have hb : c ≠ '\\' := by intro e; subst e; revert hs; decide
  refine ⟨bump st c, ?_, ⟨bump_core h.toCore c, ?_, ?_⟩⟩
  · have := loop_unit st (.plain c) cs h.esc ⟨hb, hc⟩
    simp only [U.text, U.char, List.singleton_append] at this
    rw [this, lexSwitch, bump_lexState, h.state]
    simp [isSpace_single, hs, contin]
  · rw [bump_lexState, h.state]
  · rw [bump_token, h.token]

/-- One more unit of a word. -/
theorem word_step {st p tok line start depth} (h : InWord st p tok line start depth) {u : U} (hu : u.wf) {p' : WordPos}
    (hp : p.next u = some p') (cs : List Char) :
    ∃ st', loop st (u.text ++ cs) = loop st' cs ∧ InWord st' p' (tok ++ u.text) (line + nls u.text) start depth := by
  rw [loop_unit st u cs h.esc hu]
  have hcore := bump_core h.toCore u.char
  rw [nls_char] at hcore
  have hne : tok ++ u.text ≠ [] := by simp [h.tokNe]
  have hlen : (tok.length > 0) = True := by
    have := h.tokNe; simp [List.length_pos_iff, this]
  generalize hst : bump st u.char = st1 at hcore
  have e1 : st1.lexState = st.lexState := by rw [← hst, bump_lexState]
  have e2 : st1.token = tok := by rw [← hst, bump_token, h.token]
  have e3 : st1.newToken = false := by rw [← hst, bump_newToken, h.newToken]
  rcases hcore with ⟨c1, c2, c3, c4, c5⟩
  cases p with
  | out d =>
    have hstate := h.state
    have hd := h.dollar
    simp only at hstate hd
    rw [lexSwitch, e1, hstate]
    simp only [lexInWord, e3, Bool.false_and, Bool.false_eq_true, if_false, isSpace_unit, e2, hlen, decide_true,
      Bool.true_and, hd]
    cases u with
    | plain c =>
      simp only [U.text, WordPos.next] at *
      by_cases hs : isSpaceRune c = true
      · simp [hs] at hp
      · simp only [hs, if_false] at hp ⊢
        by_cases hv : c = '{' ∧ d = true
        · simp only [hv, and_self, if_true] at hp ⊢
          cases hp
          refine ⟨_, by simp [contin]; rfl, ?_⟩
          constructor <;> simp_all
          constructor <;> simp_all
        · simp only [hv, if_false] at hp
          have hv' : (d && ([c] == ['{'])) = false := by
            simp; intro e; simp_all
          simp only [hv', Bool.false_eq_true, if_false]
          by_cases hsp : isSpecialChar c = true
          · simp [hsp] at hp
          · simp only [hsp, if_false] at hp
            cases hp
            have hsp' : isSpecial [c] = false := by
              have := isSpecial_unit (.plain c); simp [U.text] at this; simp [this, hsp]
            simp only [hsp', Bool.false_eq_true, if_false]
            have hdol := hasSuffix_append_single tok c '$'
            have hdec : decide (c = '$') = (c == '$') := rfl
            split
            · refine ⟨_, by simp [contin]; rfl, ?_⟩
              constructor <;> simp_all
              constructor <;> simp_all
            · refine ⟨_, by simp [contin]; rfl, ?_⟩
              constructor <;> simp_all
              constructor <;> simp_all
    | esc c =>
      have hdol := hasSuffix_text tok (.esc c) '$'
      have hdec : decide (c = '$') = (c == '$') := rfl
      simp only [U.text, WordPos.next, U.char] at *
      cases hp
      refine ⟨_, by simp [contin, isSpecial]; rfl, ?_⟩
      constructor <;> simp_all
      constructor <;> simp_all
  | var =>
    have hstate := h.state
    simp only at hstate
    have hdol := hasSuffix_text tok u '}'
    have hdol2 := hasSuffix_text tok u '$'
    rw [lexSwitch, e1, hstate]
    simp only [e2, hdol, isSpace_unit]
    simp only [WordPos.next] at hp
    by_cases hc : u.char = '}'
    · simp only [hc, if_true] at hp
      cases hp
      refine ⟨_, by simp [hc, contin]; rfl, ?_⟩
      constructor <;> simp_all
      constructor <;> simp_all
    · simp only [hc, if_false] at hp
      cases u with
      | plain c =>
        by_cases hs : isSpaceRune c = true
        · simp only [hs, if_true] at hp
          cases hp
          have hnd : c ≠ '$' := by intro e; subst e; revert hs; decide
          refine ⟨_, by simp [hs, contin]; rfl, ?_⟩
          constructor <;> simp_all [U.char]
          constructor <;> simp_all
        · simp only [hs, if_false] at hp
          cases hp
          refine ⟨_, by simp [hs, hc, contin]; rfl, ?_⟩
          constructor <;> simp_all
          constructor <;> simp_all
      | esc c =>
        cases hp
        refine ⟨_, by simp [hc, contin]; rfl, ?_⟩
        constructor <;> simp_all
        constructor <;> simp_all

theorem word_run {st p tok line start depth} (us : List U) (h : InWord st p tok line start depth) (hu : ∀ u ∈ us, u.wf)
    {p' : WordPos} (hp : p.run us = some p') (cs : List Char) :
    ∃ st', loop st (textOf us ++ cs) = loop st' cs ∧
      InWord st' p' (tok ++ textOf us) (line + nls (textOf us)) start depth := by
  induction us generalizing st p tok line with
  | nil =>
    simp only [WordPos.run, Option.some.injEq] at hp
    subst hp
    exact ⟨st, by simp [textOf], by simpa [textOf, nls_nil] using h⟩
  | cons u us ih =>
    simp only [WordPos.run, Option.bind_eq_some_iff] at hp
    obtain ⟨p1, hp1, hp2⟩ := hp
    obtain ⟨st1, e1, h1⟩ := word_step h (hu u (by simp)) hp1 (textOf us ++ cs)
    obtain ⟨st2, e2, h2⟩ := ih h1 (fun v hv => hu v (by simp [hv])) hp2
    have ht : textOf (u :: us) = u.text ++ textOf us := by simp [textOf]
    refine ⟨st2, ?_, ?_⟩
    · rw [ht, List.append_assoc, e1, e2]
    · rw [ht, nls_append]
      simpa [List.append_assoc, Int.add_assoc] using h2

/-- The first unit of a word. -/
theorem word_start {st line start depth dup} (h : Ready st line start depth dup) {u : U} (hu : u.wf) (hs : startsWord u)
    {p : WordPos} (hp : WordPos.next (.out false) u = some p) (cs : List Char) :
    ∃ st', loop st (u.text ++ cs) = loop st' cs ∧
      InWord st' p u.text (line + nls u.text) (wordLine line [u]) depth := by
  rw [loop_unit st u cs h.esc hu]
  have hcore := bump_core h.toCore u.char
  rw [nls_char] at hcore
  generalize hst : bump st u.char = st1 at hcore
  have e1 : st1.lexState = .skipSpace := by rw [← hst, bump_lexState, h.state]
  have e2 : st1.token = [] := by rw [← hst, bump_token, h.token]
  rcases hcore with ⟨c1, c2, c3, c4, c5⟩
  rw [lexSwitch, e1]
  simp only [isSpace_unit]
  cases u with
  | plain c =>
    simp only [startsWord] at hs
    obtain ⟨s1, s2, s3, s4, s5⟩ := hs
    have hnn : c ≠ '\n' := by intro e; subst e; revert s1; decide
    have hwl : wordLine line [U.plain c] = line + nls [c] := by simp [wordLine, nls_single, hnn]
    have hdol := hasSuffix_append_single [] c '$'
    simp only [List.nil_append] at hdol
    have hdec : decide (c = '$') = (c == '$') := rfl
    have hsp' : isSpecial [c] = false := by
      have := isSpecial_unit (.plain c); simp only [U.text] at this; simpa [this] using s2
    simp only [WordPos.next, s1, s2] at hp
    simp only [U.text, lexInWord, isSpace_single, s1, hsp', e2]
    refine ⟨_, by simp [s3, s4, s5, contin]; rfl, ?_⟩
    constructor <;> simp_all
    · constructor <;> simp_all [U.text]
    · cases hp; rfl
    · cases hp; simp_all
  | esc c =>
    have hwl : wordLine line [U.esc c] = line + nls ['\\', c] := by
      have := nls_unit (.esc c)
      simp only [U.text, U.char] at this
      rw [this]
      by_cases hc : c = '\n'
      · subst hc; simp [wordLine]
      · simp only [hc, if_false]; unfold wordLine; split
        · rename_i heq; simp at heq; exact absurd heq.1 hc
        · simp
    have hdol := hasSuffix_text [] (.esc c) '$'
    have hdec : decide (c = '$') = (c == '$') := rfl
    simp only [WordPos.next, U.text, U.char, List.nil_append] at *
    cases hp
    simp only [lexInWord, isSpace_esc, e2]
    refine ⟨_, by simp [contin, isSpecial]; rfl, ?_⟩
    constructor <;> simp_all
    constructor <;> simp_all

theorem wordLine_cons (line : Int) (u : U) (us : List U) : wordLine line (u :: us) = wordLine line [u] := by
  unfold wordLine; split <;> split <;> simp_all

/-- A whole word. -/
theorem word_all {st line start depth dup} (h : Ready st line start depth dup) {us : List U} (hu : ∀ u ∈ us, u.wf)
    (hs : ∃ u us', us = u :: us' ∧ startsWord u) {p : WordPos} (hp : WordPos.run (.out false) us = some p)
    (cs : List Char) :
    ∃ st', loop st (textOf us ++ cs) = loop st' cs ∧
      InWord st' p (textOf us) (line + nls (textOf us)) (wordLine line us) depth := by
  obtain ⟨u, us', rfl, hs⟩ := hs
  simp only [WordPos.run, Option.bind_eq_some_iff] at hp
  obtain ⟨p1, hp1, hp2⟩ := hp
  have ht : textOf (u :: us') = u.text ++ textOf us' := by simp [textOf]
  obtain ⟨st1, e1, h1⟩ := word_start h (hu u (by simp)) hs hp1 (textOf us' ++ cs)
  obtain ⟨st2, e2, h2⟩ := word_run us' h1 (fun v hv => hu v (by simp [hv])) hp2 cs
  refine ⟨st2, ?_, ?_⟩
  · rw [ht, List.append_assoc, e1, e2]
  · rw [ht, nls_append, wordLine_cons, ← Int.add_assoc]; exact h2

/-- In a quoted string. -/
structure InQuote (st : LexSt) (q : Char) (tok : Str) (line start : Int) (depth : Nat) : Prop extends
    Core st line start depth false where
  state : st.lexState = .inQuote
  token : st.token = tok
  quote : st.quote = [q]

/-- In a comment. -/
structure InComment (st : LexSt) (tok : Str) (line start : Int) (depth : Nat) (dup : Bool) : Prop extends
    Core st line start depth dup where
  state : st.lexState = .inComment
  token : st.token = tok

theorem quote_start {st line start depth dup} (h : Ready st line start depth dup) {q : Char}
    (hq : q = '"' ∨ q = '\'') (cs : List Char) :
    ∃ st', loop st (q :: cs) = loop st' cs ∧ InQuote st' q [] line line depth := by
  have hu : (U.plain q).wf := by rcases hq with rfl | rfl <;> simp [U.wf]
  have := loop_unit st (.plain q) cs h.esc hu
  simp only [U.text, U.char, List.singleton_append] at this
  rw [this]
  have hcore := bump_core h.toCore q
  have hn : nls [q] = 0 := by rcases hq with rfl | rfl <;> decide
  rw [hn, Int.add_zero] at hcore
  generalize hst : bump st q = st1 at hcore
  have e1 : st1.lexState = .skipSpace := by rw [← hst, bump_lexState, h.state]
  have e2 : st1.token = [] := by rw [← hst, bump_token, h.token]
  rcases hcore with ⟨c1, c2, c3, c4, c5⟩
  have hs : isSpaceRune q = false := by rcases hq with rfl | rfl <;> decide
  have hh : q ≠ '#' := by rcases hq with rfl | rfl <;> decide
  rw [lexSwitch, e1]
  simp only [lexInWord, isSpace_single, hs, e2]
  refine ⟨_, by simp [hq, hh, contin]; rfl, ?_⟩
  constructor <;> simp_all
  constructor <;> simp_all

theorem quote_step {st q tok line start depth} (h : InQuote st q tok line start depth) {u : U} (hu : u.wf)
    (hn : u ≠ .plain q) (cs : List Char) :
    ∃ st', loop st (u.text ++ cs) = loop st' cs ∧
      InQuote st' q (tok ++ if u = .esc q then [q] else u.text) (line + nls u.text) start depth := by
  rw [loop_unit st u cs h.esc hu]
  have hcore := bump_core h.toCore u.char
  rw [nls_char] at hcore
  have e1 : (bump st u.char).lexState = .inQuote := by rw [bump_lexState, h.state]
  have e2 : (bump st u.char).token = tok := by rw [bump_token, h.token]
  have e3 : (bump st u.char).quote = [q] := by rw [bump_quote, h.quote]
  generalize bump st u.char = st1 at *
  rcases hcore with ⟨c1, c2, c3, c4, c5⟩
  rw [lexSwitch, e1]
  have t1 : (u.text == [q]) = false := by
    cases u <;> simp_all [U.text]
  have t2 : (u.text == '\\' :: [q]) = decide (u = .esc q) := by
    cases u <;> simp [U.text] <;> rfl
  simp only [e2, e3, t1, t2]
  refine ⟨_, by simp [contin]; rfl, ?_⟩
  constructor <;> simp_all
  constructor <;> simp_all

theorem quote_run {st q tok line start depth} (us : List U) (h : InQuote st q tok line start depth)
    (hu : ∀ u ∈ us, u.wf ∧ u ≠ .plain q) (cs : List Char) :
    ∃ st', loop st (textOf us ++ cs) = loop st' cs ∧
      InQuote st' q (tok ++ quotedValue q us) (line + nls (textOf us)) start depth := by
  induction us generalizing st tok line with
  | nil => exact ⟨st, by simp [textOf], by simpa [textOf, nls_nil, quotedValue] using h⟩
  | cons u us ih =>
    obtain ⟨st1, e1, h1⟩ := quote_step h (hu u (by simp)).1 (hu u (by simp)).2 (textOf us ++ cs)
    obtain ⟨st2, e2, h2⟩ := ih h1 (fun v hv => hu v (by simp [hv]))
    have ht : textOf (u :: us) = u.text ++ textOf us := by simp [textOf]
    refine ⟨st2, ?_, ?_⟩
    · rw [ht, List.append_assoc, e1, e2]
    · rw [ht, nls_append]
      simpa [quotedValue, Int.add_assoc] using h2

theorem quote_close {st q tok line start depth} (h : InQuote st q tok line start depth) (hq : q = '"' ∨ q = '\'')
    (cs : List Char) :
    ∃ st', loop st (q :: cs) = ⟨tok, start, true, none⟩ :: loop st' cs ∧ Ready st' line start depth false := by
  have hu : (U.plain q).wf := by rcases hq with rfl | rfl <;> simp [U.wf]
  have := loop_unit st (.plain q) cs h.esc hu
  simp only [U.text, U.char, List.singleton_append] at this
  rw [this]
  have hcore := bump_core h.toCore q
  have hn : nls [q] = 0 := by rcases hq with rfl | rfl <;> decide
  rw [hn, Int.add_zero] at hcore
  have e1 : (bump st q).lexState = .inQuote := by rw [bump_lexState, h.state]
  have e2 : (bump st q).token = tok := by rw [bump_token, h.token]
  have e3 : (bump st q).quote = [q] := by rw [bump_quote, h.quote]
  generalize bump st q = st1 at *
  rcases hcore with ⟨c1, c2, c3, c4, c5⟩
  rw [lexSwitch, e1]
  simp only [e3]
  refine ⟨_, by simp [contin, LexSt.emitTok, e2, c2]; rfl, ?_⟩
  constructor <;> simp_all [LexSt.reset]
  constructor <;> simp_all

theorem comment_start {st line start depth dup} (h : Ready st line start depth dup) (cs : List Char) :
    ∃ st', loop st ('#' :: cs) = loop st' cs ∧ InComment st' ['#'] line line depth dup := by
  have := loop_unit st (.plain '#') cs h.esc (by simp [U.wf])
  simp only [U.text, U.char, List.singleton_append] at this
  rw [this]
  have hcore := bump_core h.toCore '#'
  have hn : nls ['#'] = 0 := by decide
  rw [hn, Int.add_zero] at hcore
  have e1 : (bump st '#').lexState = .skipSpace := by rw [bump_lexState, h.state]
  have e2 : (bump st '#').token = [] := by rw [bump_token, h.token]
  generalize bump st '#' = st1 at *
  rcases hcore with ⟨c1, c2, c3, c4, c5⟩
  have hs : isSpaceRune '#' = false := by decide
  rw [lexSwitch, e1]
  simp only [lexInWord, isSpace_single, hs, e2]
  refine ⟨_, by simp [contin]; rfl, ?_⟩
  constructor <;> simp_all
  constructor <;> simp_all

theorem comment_step {st tok line start depth dup} (h : InComment st tok line start depth dup) {u : U} (hu : u.wf)
    (hn : u.char ≠ '\n') (cs : List Char) :
    ∃ st', loop st (u.text ++ cs) = loop st' cs ∧ InComment st' (tok ++ u.text) line start depth dup := by
  rw [loop_unit st u cs h.esc hu]
  have hcore := bump_core h.toCore u.char
  have hz : nls [u.char] = 0 := by simp [nls_single, hn]
  rw [hz, Int.add_zero] at hcore
  have e1 : (bump st u.char).lexState = .inComment := by rw [bump_lexState, h.state]
  have e2 : (bump st u.char).token = tok := by rw [bump_token, h.token]
  generalize bump st u.char = st1 at *
  rcases hcore with ⟨c1, c2, c3, c4, c5⟩
  rw [lexSwitch, e1]
  simp only [e2, isEOL_unit]
  refine ⟨_, by simp [contin, hn]; rfl, ?_⟩
  constructor <;> simp_all
  constructor <;> simp_all

theorem comment_run {st tok line start depth dup} (us : List U) (h : InComment st tok line start depth dup)
    (hu : ∀ u ∈ us, u.wf ∧ u.char ≠ '\n') (cs : List Char) :
    ∃ st', loop st (textOf us ++ cs) = loop st' cs ∧
      InComment st' (tok ++ textOf us) line start depth dup := by
  induction us generalizing st tok with
  | nil => exact ⟨st, by simp [textOf], by simpa [textOf] using h⟩
  | cons u us ih =>
    obtain ⟨st1, e1, h1⟩ := comment_step h (hu u (by simp)).1 (hu u (by simp)).2 (textOf us ++ cs)
    obtain ⟨st2, e2, h2⟩ := ih h1 (fun v hv => hu v (by simp [hv]))
    have ht : textOf (u :: us) = u.text ++ textOf us := by simp [textOf]
    refine ⟨st2, ?_, ?_⟩
    · rw [ht, List.append_assoc, e1, e2]
    · rw [ht]; simpa using h2

theorem comment_close {st tok line start depth dup} (h : InComment st tok line start depth dup) {u : U} (hu : u.wf)
    (hn : u.char = '\n') (cs : List Char) :
    ∃ st', loop st (u.text ++ cs) = ⟨tok, start, false, none⟩ :: loop st' cs ∧ Ready st' (line + 1) start depth dup := by
  rw [loop_unit st u cs h.esc hu]
  have hcore := bump_core h.toCore u.char
  have hz : nls [u.char] = 1 := by simp [nls_single, hn]
  rw [hz] at hcore
  have e1 : (bump st u.char).lexState = .inComment := by rw [bump_lexState, h.state]
  have e2 : (bump st u.char).token = tok := by rw [bump_token, h.token]
  generalize bump st u.char = st1 at *
  rcases hcore with ⟨c1, c2, c3, c4, c5⟩
  rw [lexSwitch, e1]
  simp only [e2, isEOL_unit]
  refine ⟨_, by simp [contin, hn, LexSt.emitTok, e2, c2]; rfl, ?_⟩
  constructor <;> simp_all [LexSt.reset]
  constructor <;> simp_all

/-- End of a word at whitespace. -/
theorem word_space {st d tok line start depth} (h : InWord st (.out d) tok line start depth) {c : Char}
    (hs : isSpaceRune c = true) (hc : c ≠ '\r') (cs : List Char) :
    ∃ st', loop st (c :: cs) = ⟨tok, start, false, none⟩ :: loop st' cs ∧
      Ready st' (line + nls [c]) start depth false := by
  have hb : c ≠ '\\' := by intro e; subst e; revert hs; decide
  have := loop_unit st (.plain c) cs h.esc ⟨hb, hc⟩
  simp only [U.text, U.char, List.singleton_append] at this
  rw [this]
  have hcore := bump_core h.toCore c
  have e1 : (bump st c).lexState = .inWord := by rw [bump_lexState]; exact h.state
  have e2 : (bump st c).token = tok := by rw [bump_token, h.token]
  have e3 : (bump st c).newToken = false := by rw [bump_newToken, h.newToken]
  generalize bump st c = st1 at *
  rcases hcore with ⟨c1, c2, c3, c4, c5⟩
  rw [lexSwitch, e1]
  simp only [lexInWord, isSpace_single, hs, e3]
  refine ⟨_, by simp [contin, LexSt.emitTok, e2, c2]; rfl, ?_⟩
  constructor <;> simp_all [LexSt.reset]
  constructor <;> simp_all

/-- What a special character produces. -/
def specialOut (st' : LexSt) (line start : Int) (depth : Nat) (dup : Bool) (c : Char) (cs : List Char) : List Tok :=
  if dup ∧ c ≠ '}' then
    [⟨[], start, false, some (err (c!"unexpected \"" ++ [c] ++ c!"\"") line)⟩]
  else if c = '}' ∧ depth = 0 then
    [⟨[], start, false, some (err c!"unexpected \"}\"" line)⟩]
  else ⟨[c], start, false, none⟩ :: loop st' cs

theorem special_core {st line start depth dup} (h : Core st line start depth dup) {c : Char}
    (hs : isSpecialChar c = true) (cs : List Char) :
    ∃ st', contin cs (lexSpecial st [c]) =
        (if st.token = [] then [] else [⟨st.token, start, false, none⟩]) ++ specialOut st' line start depth dup c cs ∧
      (¬ (c = '}' ∧ depth = 0) →
       Ready st' line start (if c = '{' then depth + 1 else if c = '}' then depth - 1 else depth) true) := by
  rcases h with ⟨c1, c2, c3, c4, c5⟩
  have hcs : c = '{' ∨ c = '}' ∨ c = ';' := by
    simpa [isSpecialChar, or_assoc] using hs
  have hlen : (0 < st.token.length) ↔ st.token ≠ [] := List.length_pos_iff
  refine ⟨{ st with
    token := [], lexState := .skipSpace, dupSpecialChar := true, nextTokenIsDirective := true,
    depth := if c = '{' then st.depth + 1 else if c = '}' then st.depth - 1 else st.depth }, ?_, ?_⟩
  · unfold lexSpecial specialOut
    by_cases ht : st.token = []
    · rcases hcs with rfl | rfl | rfl <;>
      · have hi : ((depth : Int) - 1 < 0) ↔ depth = 0 := by omega
        by_cases hd : depth = 0 <;> cases dup <;>
          simp_all [contin, LexSt.emitTok, LexSt.reset, err, lexError, lexerFile] <;>
          (rw [if_neg (by omega)]; simp)
    · rcases hcs with rfl | rfl | rfl <;>
      · have hi : ((depth : Int) - 1 < 0) ↔ depth = 0 := by omega
        by_cases hd : depth = 0 <;> cases dup <;>
          simp_all [contin, LexSt.emitTok, LexSt.reset, err, lexError, lexerFile] <;>
          (rw [if_neg (by omega)]; simp)
  · intro hnd
    rcases hcs with rfl | rfl | rfl
    · constructor <;> try constructor
      all_goals simp_all
    · constructor <;> try constructor
      all_goals simp_all
      omega
    · constructor <;> try constructor
      all_goals simp_all

theorem ready_special {st line start depth dup} (h : Ready st line start depth dup) {c : Char}
    (hs : isSpecialChar c = true) (cs : List Char) :
    ∃ st', loop st (c :: cs) = specialOut st' line line depth dup c cs ∧
      (¬ (c = '}' ∧ depth = 0) →
       Ready st' line line (if c = '{' then depth + 1 else if c = '}' then depth - 1 else depth) true) := by
  have hcs : c = '{' ∨ c = '}' ∨ c = ';' := by
    simpa [isSpecialChar, or_assoc] using hs
  have hu : (U.plain c).wf := by rcases hcs with rfl | rfl | rfl <;> simp [U.wf]
  have hn : nls [c] = 0 := by rcases hcs with rfl | rfl | rfl <;> decide
  have hsp : isSpaceRune c = false := by rcases hcs with rfl | rfl | rfl <;> decide
  have h1 : (c == '#') = false := by rcases hcs with rfl | rfl | rfl <;> decide
  have h2 : (([c] : Str) == ['"'] || ([c] : Str) == ['\'']) = false := by
    rcases hcs with rfl | rfl | rfl <;> decide
  have h3 : isSpecial [c] = true := by rcases hcs with rfl | rfl | rfl <;> decide
  have := loop_unit st (.plain c) cs h.esc hu
  simp only [U.text, U.char, List.singleton_append] at this
  rw [this]
  have hcore := bump_core h.toCore c
  rw [hn, Int.add_zero] at hcore
  have e1 : (bump st c).lexState = .skipSpace := by rw [bump_lexState, h.state]
  have e2 : (bump st c).token = [] := by rw [bump_token, h.token]
  generalize bump st c = st1 at *
  have hcore2 : Core { st1 with lexState := .inWord, newToken := false, tokenStartLine := st1.tokenLine }
      line line depth dup := by
    rcases hcore with ⟨c1, c2, c3, c4, c5⟩
    constructor <;> simp_all
  obtain ⟨st', q1, q2⟩ := special_core hcore2 hs cs
  refine ⟨st', ?_, q2⟩
  rw [lexSwitch, e1]
  simp only [lexInWord, isSpace_single, hsp, e2]
  have h4 : (([c] : Str) == ['#']) = false := by simpa using h1
  simp only [h2, h3, h4, e2] at q1 ⊢
  simpa using q1

theorem word_special {st d tok line start depth} (h : InWord st (.out d) tok line start depth) {c : Char}
    (hs : isSpecialChar c = true) (hd : ¬ (c = '{' ∧ d = true)) (cs : List Char) :
    ∃ st', loop st (c :: cs) = ⟨tok, start, false, none⟩ :: specialOut st' line start depth false c cs ∧
      (¬ (c = '}' ∧ depth = 0) →
       Ready st' line start (if c = '{' then depth + 1 else if c = '}' then depth - 1 else depth) true) := by
  have hcs : c = '{' ∨ c = '}' ∨ c = ';' := by
    simpa [isSpecialChar, or_assoc] using hs
  have hu : (U.plain c).wf := by rcases hcs with rfl | rfl | rfl <;> simp [U.wf]
  have hn : nls [c] = 0 := by rcases hcs with rfl | rfl | rfl <;> decide
  have hsp : isSpaceRune c = false := by rcases hcs with rfl | rfl | rfl <;> decide
  have h2 : (([c] : Str) == ['"'] || ([c] : Str) == ['\'']) = false := by
    rcases hcs with rfl | rfl | rfl <;> decide
  have h3 : isSpecial [c] = true := by rcases hcs with rfl | rfl | rfl <;> decide
  have := loop_unit st (.plain c) cs h.esc hu
  simp only [U.text, U.char, List.singleton_append] at this
  rw [this]
  have hcore := bump_core h.toCore c
  rw [hn, Int.add_zero] at hcore
  have e1 : (bump st c).lexState = .inWord := by rw [bump_lexState]; exact h.state
  have e2 : (bump st c).token = tok := by rw [bump_token, h.token]
  have e3 : (bump st c).newToken = false := by rw [bump_newToken, h.newToken]
  have hne := h.tokNe
  have hdol : hasSuffix tok ['$'] = d := h.dollar
  generalize bump st c = st1 at *
  have hst : { st1 with newToken := false } = st1 := by
    rcases st1 with ⟨⟩; simp only at e3; subst e3; rfl
  obtain ⟨st', q1, q2⟩ := special_core hcore hs cs
  refine ⟨st', ?_, q2⟩
  rw [lexSwitch, e1]
  have h5 : (hasSuffix tok ['$'] && ([c] : Str) == ['{']) = false := by
    rw [hdol]; cases d <;> simp_all
  rw [← e2] at h5
  simp only [lexInWord, isSpace_single, hsp, e3, Bool.and_assoc, h2, h3, h5, Bool.and_false, Bool.false_and,
    Bool.false_eq_true, if_false, if_true]
  rw [hst]
  simp only [e2, hne, if_false] at q1
  simpa using q1

theorem loop_dangling (st : LexSt) (he : st.esc = false) {d : Str} (hd : Dangling d) : loop st d = lexFinish st := by
  rcases hd with rfl | rfl
  · exact loop_nil st
  · rw [loop_backslash st [] he, loop_nil]
    unfold lexFinish
    by_cases ht : st.token.length > 0 <;> simp [ht, LexSt.reset, LexSt.emitTok]

theorem finish_eq {st line start depth dup} (h : Core st line start depth dup) :
    lexFinish st = (if st.token = [] then [] else [⟨st.token, start, st.lexState == .inQuote, none⟩]) ++
      (if depth > 0 then [⟨[], start, false, some (err c!"unexpected end of file, expecting \"}\"" line)⟩] else []) := by
  rcases h with ⟨c1, c2, c3, c4, c5⟩
  unfold lexFinish
  by_cases ht : st.token = [] <;> by_cases hd : depth = 0
  · simp [ht, hd, c3]
  · have : (0 : Int) < depth := by omega
    simp [ht, hd, c3, c2, c1, LexSt.emitTok, this, err, lexError, lexerFile, Nat.pos_of_ne_zero]
  · have hl : 0 < st.token.length := List.length_pos_iff.2 ht
    simp [ht, hd, c3, c2, LexSt.emitTok, LexSt.reset, hl]
  · have : (0 : Int) < depth := by omega
    have hl : 0 < st.token.length := List.length_pos_iff.2 ht
    simp [ht, hd, c3, c2, c1, LexSt.emitTok, LexSt.reset, hl, this, err, lexError, lexerFile, Nat.pos_of_ne_zero]

/-- The lexer on a well-formed sequence of items, from a state between tokens. -/
theorem loop_items (n : Nat) : ∀ (items : List Item), items.length ≤ n → ∀ {st line start depth dup},
    Ready st line start depth dup → WF items → ∀ {d : Str}, Dangling d →
    loop st (unlex items ++ d) = specToks line start depth dup false items := by
  induction n with
  | zero =>
    intro items hn st line start depth dup h hw d hd
    have : items = [] := by cases items <;> simp_all
    subst this
    simp only [unlex, List.flatMap_nil, List.nil_append, loop_dangling st h.esc hd, finish_eq h.toCore, h.token,
      if_true, specToks]
  | succ n ih =>
    intro items hn st line start depth dup h hw d hd
    have hu : ∀ (i : Item) (rest : List Item), unlex (i :: rest) ++ d = i.text ++ (unlex rest ++ d) := by
      intro i rest; simp [unlex]
    match items, hn, hw with
    | [], _, _ =>
      simp only [unlex, List.flatMap_nil, List.nil_append, loop_dangling st h.esc hd, finish_eq h.toCore, h.token,
        if_true, specToks]
    | .space c :: rest, hn, hw =>
      obtain ⟨w1, w2, w3⟩ := hw
      obtain ⟨st', e, h'⟩ := ready_space h w1 w2 (unlex rest ++ d)
      rw [hu, Item.text, List.singleton_append, e, specToks]
      exact ih rest (by simpa using hn) h' w3 hd
    | .special c :: rest, hn, hw =>
      obtain ⟨w1, w2⟩ := hw
      obtain ⟨st', e, h'⟩ := ready_special h w1 (unlex rest ++ d)
      rw [hu, Item.text, List.singleton_append, e, specToks, specialOut]
      simp only [Bool.false_eq_true, if_false]
      by_cases g1 : (dup = true ∧ c ≠ '}')
      · simp only [g1, and_self, if_true, ne_eq, not_false_eq_true]
      · rw [if_neg g1, if_neg g1]
        by_cases g2 : (c = '}' ∧ depth = 0)
        · simp only [g2, and_self, if_true]
        · rw [if_neg g2, if_neg g2, ih rest (by simpa using hn) (h' g2) w2 hd]
    | .quoted q us closed :: rest, hn, hw =>
      obtain ⟨w1, w2, w3, w4⟩ := hw
      rw [hu, Item.text, specToks]
      simp only [List.cons_append, List.append_assoc]
      obtain ⟨st1, e1, h1⟩ := quote_start h w1 (textOf us ++ ((if closed then [q] else []) ++ (unlex rest ++ d)))
      obtain ⟨st2, e2, h2⟩ := quote_run us h1 w2 ((if closed then [q] else []) ++ (unlex rest ++ d))
      rw [e1, e2]
      simp only [List.nil_append] at h2
      cases closed with
      | true =>
        obtain ⟨st3, e3, h3⟩ := quote_close h2 w1 (unlex rest ++ d)
        simp only [if_true, List.singleton_append, true_or]
        rw [e3, ih rest (by simpa using hn) h3 w4 hd]
      | false =>
        have hr := w3 rfl
        subst hr
        simp only [Bool.false_eq_true, if_false, List.nil_append, false_or, unlex, List.flatMap_nil]
        rw [loop_dangling st2 h2.esc hd, finish_eq h2.toCore, h2.token, h2.state]
        by_cases hv : quotedValue q us = [] <;> simp [hv, specToks] <;> rfl
    | .comment us e :: rest, hn, hw =>
      obtain ⟨w1, w2, w3⟩ := hw
      rw [hu, Item.text, specToks]
      simp only [List.cons_append, List.append_assoc]
      obtain ⟨st1, e1, h1⟩ := comment_start h (textOf us ++ (e.text ++ (unlex rest ++ d)))
      obtain ⟨st2, e2, h2⟩ := comment_run us h1 w1 (e.text ++ (unlex rest ++ d))
      rw [e1, e2]
      cases e with
      | nl =>
        obtain ⟨st3, e3, h3⟩ := comment_close (u := .plain '\n') h2 (by simp [U.wf]) rfl (unlex rest ++ d)
        rw [show CommentEnd.text .nl = U.text (.plain '\n') from rfl, e3, ih rest (by simpa using hn) h3 w3 hd]
        rfl
      | escNl =>
        obtain ⟨st3, e3, h3⟩ := comment_close (u := .esc '\n') h2 (by simp [U.wf]) rfl (unlex rest ++ d)
        rw [show CommentEnd.text .escNl = U.text (.esc '\n') from rfl, e3, ih rest (by simpa using hn) h3 w3 hd]
        rfl
      | eof =>
        have hr := w2 rfl
        subst hr
        simp only [CommentEnd.text, List.nil_append, unlex, List.flatMap_nil]
        rw [loop_dangling st2 h2.esc hd, finish_eq h2.toCore, h2.token, h2.state]
        simp [specToks, nls_nil]
    | .word us :: rest, hn, hw =>
      obtain ⟨w1, w2, ⟨p, w3, w4⟩, w5⟩ := hw
      rw [hu, Item.text, specToks]
      obtain ⟨st1, e1, h1⟩ := word_all h w1 w2 w3 (unlex rest ++ d)
      rw [e1]
      have hst : (st1.lexState == .inQuote) = false := by
        rw [h1.state]; cases p <;> rfl
      match rest, hn, w4, w5 with
      | [], _, _, _ =>
        simp only [unlex, List.flatMap_nil, List.nil_append]
        rw [loop_dangling st1 h1.esc hd, finish_eq h1.toCore, hst, h1.token]
        simp [specToks, h1.tokNe]
      | .space c :: rest', hn, w4, w5 =>
        cases p with
        | var => exact absurd w4 id
        | out dol =>
          obtain ⟨v1, v2, v3⟩ := w5
          obtain ⟨st2, e2, h2⟩ := word_space h1 v1 v2 (unlex rest' ++ d)
          rw [hu, Item.text, List.singleton_append, e2, specToks]
          rw [ih rest' (by simp at hn; omega) h2 v3 hd]
      | .special c :: rest', hn, w4, w5 =>
        cases p with
        | var => exact absurd w4 id
        | out dol =>
          obtain ⟨v1, v2⟩ := w5
          obtain ⟨st2, e2, h2⟩ := word_special h1 v1 w4 (unlex rest' ++ d)
          rw [hu, Item.text, List.singleton_append, e2, specToks, specialOut]
          simp only [Bool.false_eq_true, false_and, if_false, if_true]
          congr 1
          by_cases g2 : (c = '}' ∧ depth = 0)
          · rw [if_pos g2, if_pos g2]
          · rw [if_neg g2, if_neg g2, ih rest' (by simp at hn; omega) (h2 g2) v2 hd]
      | .word _ :: _, _, w4, _ => exact absurd w4 (by cases p <;> exact id)
      | .quoted _ _ _ :: _, _, w4, _ => exact absurd w4 (by cases p <;> exact id)
      | .comment _ _ :: _, _, w4, _ => exact absurd w4 (by cases p <;> exact id)

/-- The tokens of a text are the tokens of its items. -/
theorem lex_items {items : List Item} (hw : WF items) {d : Str} (hd : Dangling d) :
    lex (unlex items ++ d) = toksOf items := by
  rw [lex_eq_loop]
  refine loop_items items.length items (Nat.le_refl _) ?_ hw hd
  constructor <;> try constructor
  all_goals rfl

end Verif
