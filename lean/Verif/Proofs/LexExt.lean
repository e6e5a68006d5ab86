import Verif.Proofs.LexItems
import Verif.Spec.External
/-!
# The lexer with external lexers

The lemmas of `Proofs/LexItems` for the loop with external lexers: as long as no string that is looked up is registered, a unit has the same effect.
They also say whether the lexer is in directive position.
-/
namespace Verif.ExtLex
open Verif Spec

/-- The loop with external lexers. -/
abbrev loopE (ext : ExtLexers) (st : LexSt) (s : List Char) : List Tok := tokenizeLoop ext 0 st s

/-- The effect of one `la`. -/
def continE (ext : ExtLexers) (cs : List Char) : List Tok × Option LexSt → List Tok
  | (out, none) => out
  | (out, some st) => out ++ loopE ext st cs

variable {ext : ExtLexers}

theorem loopE_nil (st : LexSt) : loopE ext st [] = lexFinish st := by simp [loopE, tokenizeLoop]

theorem loopE_backslash (st : LexSt) (cs : List Char) (h : st.esc = false) :
    loopE ext st ('\\' :: cs) = loopE ext { st with esc := true } cs := by
  simp [loopE, tokenizeLoop, h]

theorem bump_dir (st : LexSt) (c : Char) : (bump st c).nextTokenIsDirective = (st.nextTokenIsDirective || c == '\n') := by
  unfold bump; split
  · rename_i h; simp [h]
  · rename_i h; simp at h; simp [h]

/-- No external lexer is used before this character. -/
def NoLook (ext : ExtLexers) (st : LexSt) (c : Char) : Prop :=
  st.token ≠ [] → (st.nextTokenIsDirective || c == '\n') = true → ext st.token = none

theorem look_none {st : LexSt} {c : Char} (hx : NoLook ext st c) :
    (if ((bump st c).token.length > 0 && (bump st c).nextTokenIsDirective) = true then ext (bump st c).token else none) = none := by
  rw [bump_token, bump_dir]
  split
  · rename_i h
    simp only [Bool.and_eq_true, decide_eq_true_eq] at h
    exact hx (List.length_pos_iff.mp h.1) h.2
  · rfl

theorem loopE_plain (st : LexSt) (c : Char) (cs : List Char) (h : st.esc = false) (h1 : c ≠ '\r') (h2 : c ≠ '\\') (hx : NoLook ext st c) :
    loopE ext st (c :: cs) = continE ext cs (lexSwitch { bump st c with esc := false } [c]) := by
  have hb : (bump st c).esc = false := by rw [bump_esc, h]
  have e1 : (c == '\r') = false := by simpa using h1
  have e2 : (c == '\\') = false := by simpa using h2
  rw [loopE, tokenizeLoop]
  simp only [bump_def, e1, e2, hb, Bool.false_and, Bool.false_eq_true, if_false]
  split
  · rename_i lx hlx
    exfalso
    have hl : some lx = none := hlx.symm.trans (look_none hx)
    cases hl
  · rcases hh : lexSwitch { bump st c with esc := false } [c] with ⟨out, o⟩
    cases o <;> simp [continE]

theorem loopE_esc (st : LexSt) (c : Char) (cs : List Char) (h : st.esc = true) (h1 : c ≠ '\r') (hx : NoLook ext st c) :
    loopE ext st (c :: cs) = continE ext cs (lexSwitch { bump st c with esc := false } ['\\', c]) := by
  have hb : (bump st c).esc = true := by rw [bump_esc, h]
  have e1 : (c == '\r') = false := by simpa using h1
  rw [loopE, tokenizeLoop]
  simp only [bump_def, e1, hb, Bool.not_true, Bool.and_false, Bool.false_eq_true, if_false, if_true]
  split
  · rename_i lx hlx
    exfalso
    have hl : some lx = none := hlx.symm.trans (look_none hx)
    cases hl
  · rcases hh : lexSwitch { bump st c with esc := false } ['\\', c] with ⟨out, o⟩
    cases o <;> simp [continE]

/-- Reading one unit. -/
theorem loopE_unit (st : LexSt) (u : U) (cs : List Char) (h : st.esc = false) (hu : u.wf) (hx : NoLook ext st u.char) :
    loopE ext st (u.text ++ cs) = continE ext cs (lexSwitch (bump st u.char) u.text) := by
  have hb : ∀ c, { bump st c with esc := false } = bump st c := by
    intro c
    have h' : (bump st c).esc = false := by rw [bump_esc, h]
    rcases hh : bump st c with ⟨⟩
    rw [hh] at h'
    simp only at h'
    simp [h']
  cases u with
  | plain c =>
    simp only [U.wf] at hu
    simp only [U.text, List.singleton_append, U.char]
    rw [loopE_plain st c cs h hu.2 hu.1 hx, hb]
  | esc c =>
    simp only [U.wf] at hu
    simp only [U.text, List.cons_append, List.nil_append, U.char]
    rw [loopE_backslash st _ h, loopE_esc { st with esc := true } c cs rfl hu (show NoLook ext { st with esc := true } c from hx)]
    congr 2
    have : { bump { st with esc := true } c with esc := false } = { bump st c with esc := false } := by
      unfold bump; split <;> rfl
    rw [this, hb]

theorem noLook_ready {st : LexSt} {line start : Int} {depth : Nat} {dup : Bool} (h : Ready st line start depth dup) (c : Char) : NoLook ext st c :=
  fun h1 => absurd h.token h1

theorem ready_space {st line start depth dup} (h : Ready st line start depth dup) {c : Char} (hs : isSpaceRune c = true)
    (hc : c ≠ '\r') (cs : List Char) :
    ∃ st', loopE ext st (c :: cs) = loopE ext st' cs ∧ Ready st' (line + nls [c]) start depth dup ∧ st'.nextTokenIsDirective = (st.nextTokenIsDirective || c == '\n') := by
  have hb : c ≠ '\\' := by intro e; subst e; revert hs; decide
  refine ⟨bump st c, ?_, ⟨bump_core h.toCore c, ?_, ?_⟩, bump_dir st c⟩
  · have := loopE_unit (ext := ext) st (.plain c) cs h.esc ⟨hb, hc⟩ (noLook_ready h c)
    simp only [U.text, U.char, List.singleton_append] at this
    rw [this, lexSwitch, bump_lexState, h.state]
    simp [isSpace_single, hs, continE]
  · rw [bump_lexState, h.state]
  · rw [bump_token, h.token]

theorem word_step {st p tok line start depth} (h : InWord st p tok line start depth) {u : U} (hu : u.wf) {p' : WordPos}
    (hp : p.next u = some p') (hx : NoLook ext st u.char) (cs : List Char) :
    ∃ st', loopE ext st (u.text ++ cs) = loopE ext st' cs ∧ InWord st' p' (tok ++ u.text) (line + nls u.text) start depth ∧ (st'.nextTokenIsDirective = true → (st.nextTokenIsDirective || u.char == '\n') = true) ∧ (u ≠ .plain '{' → st'.nextTokenIsDirective = (st.nextTokenIsDirective || u.char == '\n')) := by
  rw [loopE_unit (ext := ext) st u cs h.esc hu hx]
  have hcore := bump_core h.toCore u.char
  rw [nls_char] at hcore
  have hne : tok ++ u.text ≠ [] := by simp [h.tokNe]
  have hlen : (tok.length > 0) = True := by
    have := h.tokNe; simp [List.length_pos_iff, this]
  have e4 := bump_dir st u.char
  generalize (st.nextTokenIsDirective || u.char == '\n') = F at e4 ⊢
  generalize hst : bump st u.char = st1 at hcore e4
  have e1 : st1.lexState = st.lexState := by rw [← hst, bump_lexState]
  have e2 : st1.token = tok := by rw [← hst, bump_token, h.token]
  have e3 : st1.newToken = false := by rw [← hst, bump_newToken, h.newToken]
  rcases hcore with ⟨c1, c2, c3, c4, c5⟩
  cases p with
  | out d =>
    have hstate := h.state
    have hd := h.dollar
    simp only at hstate hd
    rw [lexSwitch, e1, hstate]
    simp only [lexInWord, e3, Bool.false_and, Bool.false_eq_true, if_false, isSpace_unit, e2, hlen, decide_true,
      Bool.true_and, hd]
    cases u with
    | plain c =>
      simp only [U.text, WordPos.next] at *
      by_cases hs : isSpaceRune c = true
      · simp [hs] at hp
      · simp only [hs, if_false] at hp ⊢
        by_cases hv : c = '{' ∧ d = true
        · simp only [hv, and_self, if_true] at hp ⊢
          cases hp
          refine ⟨_, by simp [continE]; rfl, ?_, ?_, ?_⟩
          · constructor <;> simp_all
            constructor <;> simp_all
          · simp_all
          · simp_all
        · simp only [hv, if_false] at hp
          have hv' : (d && ([c] == ['{'])) = false := by
            simp; intro e; simp_all
          simp only [hv', Bool.false_eq_true, if_false]
          by_cases hsp : isSpecialChar c = true
          · simp [hsp] at hp
          · simp only [hsp, if_false] at hp
            cases hp
            have hsp' : isSpecial [c] = false := by
              have := isSpecial_unit (.plain c); simp [U.text] at this; simp [this, hsp]
            simp only [hsp', Bool.false_eq_true, if_false]
            have hdol := hasSuffix_append_single tok c '$'
            have hdec : decide (c = '$') = (c == '$') := rfl
            split
            · refine ⟨_, by simp [continE]; rfl, ?_, ?_, ?_⟩
              · constructor <;> simp_all
                constructor <;> simp_all
              · simp_all
              · simp_all
            · refine ⟨_, by simp [continE]; rfl, ?_, ?_, ?_⟩
              · constructor <;> simp_all
                constructor <;> simp_all
              · simp_all
              · simp_all
    | esc c =>
      have hdol := hasSuffix_text tok (.esc c) '$'
      have hdec : decide (c = '$') = (c == '$') := rfl
      simp only [U.text, WordPos.next, U.char] at *
      cases hp
      refine ⟨_, by simp [continE, isSpecial]; rfl, ?_, ?_, ?_⟩
      · constructor <;> simp_all
        constructor <;> simp_all
      · simp_all
      · simp_all
  | var =>
    have hstate := h.state
    simp only at hstate
    have hdol := hasSuffix_text tok u '}'
    have hdol2 := hasSuffix_text tok u '$'
    rw [lexSwitch, e1, hstate]
    simp only [e2, hdol, isSpace_unit]
    simp only [WordPos.next] at hp
    by_cases hc : u.char = '}'
    · simp only [hc, if_true] at hp
      cases hp
      refine ⟨_, by simp [hc, continE]; rfl, ?_, ?_, ?_⟩
      · constructor <;> simp_all
        constructor <;> simp_all
      · simp_all
      · simp_all
    · simp only [hc, if_false] at hp
      cases u with
      | plain c =>
        by_cases hs : isSpaceRune c = true
        · simp only [hs, if_true] at hp
          cases hp
          have hnd : c ≠ '$' := by intro e; subst e; revert hs; decide
          refine ⟨_, by simp [hs, continE]; rfl, ?_, ?_, ?_⟩
          · constructor <;> simp_all [U.char]
            constructor <;> simp_all
          · simp_all
          · simp_all
        · simp only [hs, if_false] at hp
          cases hp
          refine ⟨_, by simp [hs, hc, continE]; rfl, ?_, ?_, ?_⟩
          · constructor <;> simp_all
            constructor <;> simp_all
          · simp_all
          · simp_all
      | esc c =>
        cases hp
        refine ⟨_, by simp [hc, continE]; rfl, ?_, ?_, ?_⟩
        · constructor <;> simp_all
          constructor <;> simp_all
        · simp_all
        · simp_all

theorem word_start {st line start depth dup} (h : Ready st line start depth dup) {u : U} (hu : u.wf) (hs : startsWord u)
    {p : WordPos} (hp : WordPos.next (.out false) u = some p) (cs : List Char) :
    ∃ st', loopE ext st (u.text ++ cs) = loopE ext st' cs ∧
      InWord st' p u.text (line + nls u.text) (wordLine line [u]) depth ∧ (st'.nextTokenIsDirective = true → (st.nextTokenIsDirective || u.char == '\n') = true) ∧ (u ≠ .plain '{' → st'.nextTokenIsDirective = (st.nextTokenIsDirective || u.char == '\n')) := by
  rw [loopE_unit (ext := ext) st u cs h.esc hu (noLook_ready h _)]
  have hcore := bump_core h.toCore u.char
  rw [nls_char] at hcore
  have e4 := bump_dir st u.char
  generalize (st.nextTokenIsDirective || u.char == '\n') = F at e4 ⊢
  generalize hst : bump st u.char = st1 at hcore e4
  have e1 : st1.lexState = .skipSpace := by rw [← hst, bump_lexState, h.state]
  have e2 : st1.token = [] := by rw [← hst, bump_token, h.token]
  rcases hcore with ⟨c1, c2, c3, c4, c5⟩
  rw [lexSwitch, e1]
  simp only [isSpace_unit]
  cases u with
  | plain c =>
    simp only [startsWord] at hs
    obtain ⟨s1, s2, s3, s4, s5⟩ := hs
    have hnn : c ≠ '\n' := by intro e; subst e; revert s1; decide
    have hwl : wordLine line [U.plain c] = line + nls [c] := by simp [wordLine, nls_single, hnn]
    have hdol := hasSuffix_append_single [] c '$'
    simp only [List.nil_append] at hdol
    have hdec : decide (c = '$') = (c == '$') := rfl
    have hsp' : isSpecial [c] = false := by
      have := isSpecial_unit (.plain c); simp only [U.text] at this; simpa [this] using s2
    simp only [WordPos.next, s1, s2] at hp
    simp only [U.text, lexInWord, isSpace_single, s1, hsp', e2]
    refine ⟨_, by simp [s3, s4, s5, continE]; rfl, ?_, ?_, ?_⟩
    · constructor <;> simp_all
      · constructor <;> simp_all [U.text]
      · cases hp; rfl
      · cases hp; simp_all
    · simp_all
    · simp_all
  | esc c =>
    have hwl : wordLine line [U.esc c] = line + nls ['\\', c] := by
      have := nls_unit (.esc c)
      simp only [U.text, U.char] at this
      rw [this]
      by_cases hc : c = '\n'
      · subst hc; simp [wordLine]
      · simp only [hc, if_false]; unfold wordLine; split
        · rename_i heq; simp at heq; exact absurd heq.1 hc
        · simp
    have hdol := hasSuffix_text [] (.esc c) '$'
    have hdec : decide (c = '$') = (c == '$') := rfl
    simp only [WordPos.next, U.text, U.char, List.nil_append] at *
    cases hp
    simp only [lexInWord, isSpace_esc, e2]
    refine ⟨_, by simp [continE, isSpecial]; rfl, ?_, ?_, ?_⟩
    · constructor <;> simp_all
      constructor <;> simp_all
    · simp_all
    · simp_all

theorem quote_start {st line start depth dup} (h : Ready st line start depth dup) {q : Char}
    (hq : q = '"' ∨ q = '\'') (cs : List Char) :
    ∃ st', loopE ext st (q :: cs) = loopE ext st' cs ∧ InQuote st' q [] line line depth ∧ st'.nextTokenIsDirective = st.nextTokenIsDirective := by
  have hu : (U.plain q).wf := by rcases hq with rfl | rfl <;> simp [U.wf]
  have := loopE_unit (ext := ext) st (.plain q) cs h.esc hu (noLook_ready h _)
  simp only [U.text, U.char, List.singleton_append] at this
  rw [this]
  have hcore := bump_core h.toCore q
  have hn : nls [q] = 0 := by rcases hq with rfl | rfl <;> decide
  rw [hn, Int.add_zero] at hcore
  have e4 := bump_dir st q
  have hqn : (q == '\n') = false := by rcases hq with rfl | rfl <;> rfl
  rw [hqn, Bool.or_false] at e4
  generalize hst : bump st q = st1 at hcore e4
  have e1 : st1.lexState = .skipSpace := by rw [← hst, bump_lexState, h.state]
  have e2 : st1.token = [] := by rw [← hst, bump_token, h.token]
  rcases hcore with ⟨c1, c2, c3, c4, c5⟩
  have hs : isSpaceRune q = false := by rcases hq with rfl | rfl <;> decide
  have hh : q ≠ '#' := by rcases hq with rfl | rfl <;> decide
  rw [lexSwitch, e1]
  simp only [lexInWord, isSpace_single, hs, e2]
  refine ⟨_, by simp [hq, hh, continE]; rfl, ?_, ?_⟩
  · constructor <;> simp_all
    constructor <;> simp_all
  · simp_all [LexSt.reset]

theorem quote_step {st q tok line start depth} (h : InQuote st q tok line start depth) {u : U} (hu : u.wf)
    (hn : u ≠ .plain q) (hx : NoLook ext st u.char) (cs : List Char) :
    ∃ st', loopE ext st (u.text ++ cs) = loopE ext st' cs ∧
      InQuote st' q (tok ++ if u = .esc q then [q] else u.text) (line + nls u.text) start depth ∧ st'.nextTokenIsDirective = (st.nextTokenIsDirective || u.char == '\n') := by
  rw [loopE_unit (ext := ext) st u cs h.esc hu hx]
  have hcore := bump_core h.toCore u.char
  rw [nls_char] at hcore
  have e1 : (bump st u.char).lexState = .inQuote := by rw [bump_lexState, h.state]
  have e2 : (bump st u.char).token = tok := by rw [bump_token, h.token]
  have e3 : (bump st u.char).quote = [q] := by rw [bump_quote, h.quote]
  have e4 := bump_dir st u.char
  generalize (st.nextTokenIsDirective || u.char == '\n') = F at e4 ⊢
  clear hx
  generalize bump st u.char = st1 at *
  rcases hcore with ⟨c1, c2, c3, c4, c5⟩
  rw [lexSwitch, e1]
  have t1 : (u.text == [q]) = false := by
    cases u <;> simp_all [U.text]
  have t2 : (u.text == '\\' :: [q]) = decide (u = .esc q) := by
    cases u <;> simp [U.text] <;> rfl
  simp only [e2, e3, t1, t2]
  refine ⟨_, by simp [continE]; rfl, ?_, ?_⟩
  · constructor <;> simp_all
    constructor <;> simp_all
  · simp_all [LexSt.reset]

theorem quote_close {st q tok line start depth} (h : InQuote st q tok line start depth) (hq : q = '"' ∨ q = '\'')
    (hx : NoLook ext st q) (cs : List Char) :
    ∃ st', loopE ext st (q :: cs) = ⟨tok, start, true, none⟩ :: loopE ext st' cs ∧ Ready st' line start depth false ∧ st'.nextTokenIsDirective = st.nextTokenIsDirective := by
  have hu : (U.plain q).wf := by rcases hq with rfl | rfl <;> simp [U.wf]
  have := loopE_unit (ext := ext) st (.plain q) cs h.esc hu hx
  simp only [U.text, U.char, List.singleton_append] at this
  rw [this]
  have hcore := bump_core h.toCore q
  have hn : nls [q] = 0 := by rcases hq with rfl | rfl <;> decide
  rw [hn, Int.add_zero] at hcore
  have e1 : (bump st q).lexState = .inQuote := by rw [bump_lexState, h.state]
  have e2 : (bump st q).token = tok := by rw [bump_token, h.token]
  have e3 : (bump st q).quote = [q] := by rw [bump_quote, h.quote]
  have e4 := bump_dir st q
  have hqn : (q == '\n') = false := by rcases hq with rfl | rfl <;> rfl
  rw [hqn, Bool.or_false] at e4
  generalize st.nextTokenIsDirective = F at e4 ⊢
  clear this hx
  generalize bump st q = st1 at *
  rcases hcore with ⟨c1, c2, c3, c4, c5⟩
  rw [lexSwitch, e1]
  simp only [e3]
  refine ⟨_, by simp [continE, LexSt.emitTok, e2, c2]; rfl, ?_, ?_⟩
  · constructor <;> simp_all [LexSt.reset]
    constructor <;> simp_all
  · simp_all [LexSt.reset]

theorem comment_start {st line start depth dup} (h : Ready st line start depth dup) (cs : List Char) :
    ∃ st', loopE ext st ('#' :: cs) = loopE ext st' cs ∧ InComment st' ['#'] line line depth dup ∧ st'.nextTokenIsDirective = false := by
  have := loopE_unit (ext := ext) st (.plain '#') cs h.esc (by simp [U.wf]) (noLook_ready h _)
  simp only [U.text, U.char, List.singleton_append] at this
  rw [this]
  have hcore := bump_core h.toCore '#'
  have hn : nls ['#'] = 0 := by decide
  rw [hn, Int.add_zero] at hcore
  have e1 : (bump st '#').lexState = .skipSpace := by rw [bump_lexState, h.state]
  have e2 : (bump st '#').token = [] := by rw [bump_token, h.token]
  generalize bump st '#' = st1 at *
  rcases hcore with ⟨c1, c2, c3, c4, c5⟩
  have hs : isSpaceRune '#' = false := by decide
  rw [lexSwitch, e1]
  simp only [lexInWord, isSpace_single, hs, e2]
  refine ⟨_, by simp [continE]; rfl, ?_, ?_⟩
  · constructor <;> simp_all
    constructor <;> simp_all
  · simp_all [LexSt.reset]

theorem comment_step {st tok line start depth dup} (h : InComment st tok line start depth dup) {u : U} (hu : u.wf)
    (hn : u.char ≠ '\n') (hf : st.nextTokenIsDirective = false) (cs : List Char) :
    ∃ st', loopE ext st (u.text ++ cs) = loopE ext st' cs ∧ InComment st' (tok ++ u.text) line start depth dup ∧ st'.nextTokenIsDirective = false := by
  rw [loopE_unit (ext := ext) st u cs h.esc hu (by intro _ h2; simp [hf, hn] at h2)]
  have hcore := bump_core h.toCore u.char
  have hz : nls [u.char] = 0 := by simp [nls_single, hn]
  rw [hz, Int.add_zero] at hcore
  have e1 : (bump st u.char).lexState = .inComment := by rw [bump_lexState, h.state]
  have e2 : (bump st u.char).token = tok := by rw [bump_token, h.token]
  have e4 := bump_dir st u.char
  have hun : (u.char == '\n') = false := by simpa using hn
  rw [hf, hun] at e4
  generalize bump st u.char = st1 at *
  rcases hcore with ⟨c1, c2, c3, c4, c5⟩
  rw [lexSwitch, e1]
  simp only [e2, isEOL_unit]
  refine ⟨_, by simp [continE, hn]; rfl, ?_, ?_⟩
  · constructor <;> simp_all
    constructor <;> simp_all
  · simp_all [LexSt.reset]

theorem comment_close {st tok line start depth dup} (h : InComment st tok line start depth dup) {u : U} (hu : u.wf)
    (hn : u.char = '\n') (hx : NoLook ext st u.char) (cs : List Char) :
    ∃ st', loopE ext st (u.text ++ cs) = ⟨tok, start, false, none⟩ :: loopE ext st' cs ∧ Ready st' (line + 1) start depth dup ∧ st'.nextTokenIsDirective = true := by
  rw [loopE_unit (ext := ext) st u cs h.esc hu hx]
  have hcore := bump_core h.toCore u.char
  have hz : nls [u.char] = 1 := by simp [nls_single, hn]
  rw [hz] at hcore
  have e1 : (bump st u.char).lexState = .inComment := by rw [bump_lexState, h.state]
  have e2 : (bump st u.char).token = tok := by rw [bump_token, h.token]
  have e4 := bump_dir st u.char
  have hun : (u.char == '\n') = true := by simpa using hn
  rw [hun, Bool.or_true] at e4
  clear hx
  generalize bump st u.char = st1 at *
  rcases hcore with ⟨c1, c2, c3, c4, c5⟩
  rw [lexSwitch, e1]
  simp only [e2, isEOL_unit]
  refine ⟨_, by simp [continE, hn, LexSt.emitTok, e2, c2]; rfl, ?_, ?_⟩
  · constructor <;> simp_all [LexSt.reset]
    constructor <;> simp_all
  · simp_all [LexSt.reset]

theorem word_space {st d tok line start depth} (h : InWord st (.out d) tok line start depth) {c : Char}
    (hs : isSpaceRune c = true) (hc : c ≠ '\r') (hx : NoLook ext st c) (cs : List Char) :
    ∃ st', loopE ext st (c :: cs) = ⟨tok, start, false, none⟩ :: loopE ext st' cs ∧
      Ready st' (line + nls [c]) start depth false ∧ st'.nextTokenIsDirective = false := by
  have hb : c ≠ '\\' := by intro e; subst e; revert hs; decide
  have := loopE_unit (ext := ext) st (.plain c) cs h.esc ⟨hb, hc⟩ hx
  simp only [U.text, U.char, List.singleton_append] at this
  rw [this]
  have hcore := bump_core h.toCore c
  have e1 : (bump st c).lexState = .inWord := by rw [bump_lexState]; exact h.state
  have e2 : (bump st c).token = tok := by rw [bump_token, h.token]
  have e3 : (bump st c).newToken = false := by rw [bump_newToken, h.newToken]
  clear this hx
  generalize bump st c = st1 at *
  rcases hcore with ⟨c1, c2, c3, c4, c5⟩
  rw [lexSwitch, e1]
  simp only [lexInWord, isSpace_single, hs, e3]
  refine ⟨_, by simp [continE, LexSt.emitTok, e2, c2]; rfl, ?_, ?_⟩
  · constructor <;> simp_all [LexSt.reset]
    constructor <;> simp_all
  · simp_all [LexSt.reset]

/-- What a special character produces. -/
def specialOutE (ext : ExtLexers) (st' : LexSt) (line start : Int) (depth : Nat) (dup : Bool) (c : Char) (cs : List Char) : List Tok :=
  if dup ∧ c ≠ '}' then
    [⟨[], start, false, some (err (c!"unexpected \"" ++ [c] ++ c!"\"") line)⟩]
  else if c = '}' ∧ depth = 0 then
    [⟨[], start, false, some (err c!"unexpected \"}\"" line)⟩]
  else ⟨[c], start, false, none⟩ :: loopE ext st' cs

theorem special_core {st line start depth dup} (h : Core st line start depth dup) {c : Char}
    (hs : isSpecialChar c = true) (cs : List Char) :
    ∃ st', continE ext cs (lexSpecial st [c]) =
        (if st.token = [] then [] else [⟨st.token, start, false, none⟩]) ++ specialOutE ext st' line start depth dup c cs ∧
      (¬ (c = '}' ∧ depth = 0) →
       Ready st' line start (if c = '{' then depth + 1 else if c = '}' then depth - 1 else depth) true ∧ st'.nextTokenIsDirective = true) := by
  rcases h with ⟨c1, c2, c3, c4, c5⟩
  have hcs : c = '{' ∨ c = '}' ∨ c = ';' := by
    simpa [isSpecialChar, or_assoc] using hs
  have hlen : (0 < st.token.length) ↔ st.token ≠ [] := List.length_pos_iff
  refine ⟨{ st with
    token := [], lexState := .skipSpace, dupSpecialChar := true, nextTokenIsDirective := true,
    depth := if c = '{' then st.depth + 1 else if c = '}' then st.depth - 1 else st.depth }, ?_, ?_⟩
  · unfold lexSpecial specialOutE
    by_cases ht : st.token = []
    · rcases hcs with rfl | rfl | rfl <;>
      · have hi : ((depth : Int) - 1 < 0) ↔ depth = 0 := by omega
        by_cases hd : depth = 0 <;> cases dup <;>
          simp_all [continE, LexSt.emitTok, LexSt.reset, err, lexError, lexerFile] <;>
          (rw [if_neg (by omega)]; simp)
    · rcases hcs with rfl | rfl | rfl <;>
      · have hi : ((depth : Int) - 1 < 0) ↔ depth = 0 := by omega
        by_cases hd : depth = 0 <;> cases dup <;>
          simp_all [continE, LexSt.emitTok, LexSt.reset, err, lexError, lexerFile] <;>
          (rw [if_neg (by omega)]; simp)
  · intro hnd
    refine ⟨?_, rfl⟩
    rcases hcs with rfl | rfl | rfl
    · constructor <;> try constructor
      all_goals simp_all
    · constructor <;> try constructor
      all_goals simp_all
      omega
    · constructor <;> try constructor
      all_goals simp_all

theorem ready_special {st line start depth dup} (h : Ready st line start depth dup) {c : Char}
    (hs : isSpecialChar c = true) (cs : List Char) :
    ∃ st', loopE ext st (c :: cs) = specialOutE ext st' line line depth dup c cs ∧
      (¬ (c = '}' ∧ depth = 0) →
       Ready st' line line (if c = '{' then depth + 1 else if c = '}' then depth - 1 else depth) true ∧ st'.nextTokenIsDirective = true) := by
  have hcs : c = '{' ∨ c = '}' ∨ c = ';' := by
    simpa [isSpecialChar, or_assoc] using hs
  have hu : (U.plain c).wf := by rcases hcs with rfl | rfl | rfl <;> simp [U.wf]
  have hn : nls [c] = 0 := by rcases hcs with rfl | rfl | rfl <;> decide
  have hsp : isSpaceRune c = false := by rcases hcs with rfl | rfl | rfl <;> decide
  have h1 : (c == '#') = false := by rcases hcs with rfl | rfl | rfl <;> decide
  have h2 : (([c] : Str) == ['"'] || ([c] : Str) == ['\'']) = false := by
    rcases hcs with rfl | rfl | rfl <;> decide
  have h3 : isSpecial [c] = true := by rcases hcs with rfl | rfl | rfl <;> decide
  have := loopE_unit (ext := ext) st (.plain c) cs h.esc hu (noLook_ready h _)
  simp only [U.text, U.char, List.singleton_append] at this
  rw [this]
  have hcore := bump_core h.toCore c
  rw [hn, Int.add_zero] at hcore
  have e1 : (bump st c).lexState = .skipSpace := by rw [bump_lexState, h.state]
  have e2 : (bump st c).token = [] := by rw [bump_token, h.token]
  generalize bump st c = st1 at *
  have hcore2 : Core { st1 with lexState := .inWord, newToken := false, tokenStartLine := st1.tokenLine }
      line line depth dup := by
    rcases hcore with ⟨c1, c2, c3, c4, c5⟩
    constructor <;> simp_all
  obtain ⟨st', q1, q2⟩ := special_core (ext := ext) hcore2 hs cs
  refine ⟨st', ?_, q2⟩
  rw [lexSwitch, e1]
  simp only [lexInWord, isSpace_single, hsp, e2]
  have h4 : (([c] : Str) == ['#']) = false := by simpa using h1
  simp only [h2, h3, h4, e2] at q1 ⊢
  simpa using q1

theorem word_special {st d tok line start depth} (h : InWord st (.out d) tok line start depth) {c : Char}
    (hs : isSpecialChar c = true) (hd : ¬ (c = '{' ∧ d = true)) (hx : NoLook ext st c) (cs : List Char) :
    ∃ st', loopE ext st (c :: cs) = ⟨tok, start, false, none⟩ :: specialOutE ext st' line start depth false c cs ∧
      (¬ (c = '}' ∧ depth = 0) →
       Ready st' line start (if c = '{' then depth + 1 else if c = '}' then depth - 1 else depth) true ∧ st'.nextTokenIsDirective = true) := by
  have hcs : c = '{' ∨ c = '}' ∨ c = ';' := by
    simpa [isSpecialChar, or_assoc] using hs
  have hu : (U.plain c).wf := by rcases hcs with rfl | rfl | rfl <;> simp [U.wf]
  have hn : nls [c] = 0 := by rcases hcs with rfl | rfl | rfl <;> decide
  have hsp : isSpaceRune c = false := by rcases hcs with rfl | rfl | rfl <;> decide
  have h2 : (([c] : Str) == ['"'] || ([c] : Str) == ['\'']) = false := by
    rcases hcs with rfl | rfl | rfl <;> decide
  have h3 : isSpecial [c] = true := by rcases hcs with rfl | rfl | rfl <;> decide
  have := loopE_unit (ext := ext) st (.plain c) cs h.esc hu hx
  simp only [U.text, U.char, List.singleton_append] at this
  rw [this]
  have hcore := bump_core h.toCore c
  rw [hn, Int.add_zero] at hcore
  have e1 : (bump st c).lexState = .inWord := by rw [bump_lexState]; exact h.state
  have e2 : (bump st c).token = tok := by rw [bump_token, h.token]
  have e3 : (bump st c).newToken = false := by rw [bump_newToken, h.newToken]
  have hne := h.tokNe
  have hdol : hasSuffix tok ['$'] = d := h.dollar
  clear this hx
  generalize bump st c = st1 at *
  have hst : { st1 with newToken := false } = st1 := by
    rcases st1 with ⟨⟩; simp only at e3; subst e3; rfl
  obtain ⟨st', q1, q2⟩ := special_core (ext := ext) hcore hs cs
  refine ⟨st', ?_, q2⟩
  rw [lexSwitch, e1]
  have h5 : (hasSuffix tok ['$'] && ([c] : Str) == ['{']) = false := by
    rw [hdol]; cases d <;> simp_all
  rw [← e2] at h5
  simp only [lexInWord, isSpace_single, hsp, e3, Bool.and_assoc, h2, h3, h5, Bool.and_false, Bool.false_and,
    Bool.false_eq_true, if_false, if_true]
  rw [hst]
  simp only [e2, hne, if_false] at q1
  simpa using q1

theorem loopE_dangling (st : LexSt) (he : st.esc = false) {d : Str} (hd : Dangling d) : loopE ext st d = lexFinish st := by
  rcases hd with rfl | rfl
  · exact loopE_nil st
  · rw [loopE_backslash st [] he, loopE_nil]
    unfold lexFinish
    by_cases ht : st.token.length > 0 <;> simp [ht, LexSt.reset, LexSt.emitTok]

end Verif.ExtLex
