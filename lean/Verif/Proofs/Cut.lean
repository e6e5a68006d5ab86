import Verif.Spec.Cut
import Verif.Proofs.Concat
/-!
# Lexing a text that was cut off
-/
namespace Verif
open Spec

/-- The token `t` that is sent for what was read in the state `st`. -/
structure GoesTok (st : LexSt) (t : Tok) : Prop where
  value : st.token <+: t.value
  line : t.line = st.tokenStartLine
  quoted : t.quoted = (st.lexState == .inQuote)
  error : t.error = none

/-- Between two characters of a token. -/
structure GrowsTok (st st' : LexSt) : Prop where
  token : st.token <+: st'.token
  start : st'.tokenStartLine = st.tokenStartLine
  quoted : (st'.lexState == .inQuote) = (st.lexState == .inQuote)

theorem GrowsTok.goes {st st' : LexSt} {t : Tok} (h : GrowsTok st st') (h' : GoesTok st' t) : GoesTok st t :=
  ⟨h.token.trans h'.value, h'.line.trans h.start, h'.quoted.trans h.quoted, h'.error⟩

theorem switch_pending {st : LexSt} (hr : Reach st) (ht : st.token ≠ []) (la : Str) :
    (∃ t out r, lexSwitch st la = (t :: out, r) ∧ GoesTok st t) ∨ ∃ st', lexSwitch st la = ([], some st') ∧ GrowsTok st st' := by
  have hlen : st.token.length > 0 := List.length_pos_iff.mpr ht
  have now : ∀ q, q = (st.lexState == .inQuote) → GoesTok st (st.emitTok st.tokenStartLine q none) := fun q hq => ⟨List.prefix_rfl, rfl, hq, rfl⟩
  unfold lexSwitch
  cases hs : st.lexState with
  | skipSpace => exact absurd (hr.space hs) ht
  | inWord =>
    have hn := (hr.word (.inl hs)).2
    have hq : false = (st.lexState == .inQuote) := by rw [hs]; rfl
    simp only
    unfold lexInWord
    simp only [hn, Bool.false_and, Bool.false_eq_true, if_false, if_pos hlen]
    split
    · exact .inl ⟨_, _, _, rfl, now _ hq⟩
    · split
      · exact .inr ⟨_, rfl, List.prefix_append _ _, rfl, by rw [hs]; rfl⟩
      · split
        · exact .inr ⟨_, rfl, List.prefix_append _ _, rfl, by rw [hs]⟩
        · split
          · rename_i hsp
            left
            rw [lexSpecial_eq { st with newToken := false } hsp]
            simp only [if_pos hlen]
            split
            · exact ⟨_, _, _, rfl, now _ hq⟩
            · split
              · exact ⟨_, _, _, rfl, now _ hq⟩
              · exact ⟨_, _, _, rfl, now _ hq⟩
          · exact .inr ⟨_, rfl, List.prefix_append _ _, rfl, by rw [hs]⟩
  | inComment =>
    simp only
    split
    · exact .inl ⟨_, _, _, rfl, now _ (by rw [hs]; rfl)⟩
    · exact .inr ⟨_, rfl, List.prefix_append _ _, rfl, by rw [hs]⟩
  | inVar =>
    simp only
    split
    · exact .inr ⟨_, rfl, List.prefix_append _ _, rfl, by rw [hs]⟩
    · exact .inr ⟨_, rfl, List.prefix_append _ _, rfl, by rw [hs]; rfl⟩
  | inQuote =>
    simp only
    split
    · exact .inl ⟨_, _, _, rfl, now _ (by rw [hs]; rfl)⟩
    · exact .inr ⟨_, rfl, List.prefix_append _ _, rfl, by rw [hs]⟩

theorem loop_pending (b : List Char) : ∀ {st : LexSt}, Reach st → st.token ≠ [] → ∃ t rest, loop st b = t :: rest ∧ GoesTok st t := by
  induction b with
  | nil =>
    intro st hr ht
    have hlen : st.token.length > 0 := List.length_pos_iff.mpr ht
    have e : ∃ rest, lexFinish st = st.emitTok st.tokenStartLine (st.lexState == .inQuote) none :: rest := by
      unfold lexFinish
      rw [if_pos hlen]
      exact ⟨_, rfl⟩
    obtain ⟨rest, e⟩ := e
    exact ⟨_, rest, e, List.prefix_rfl, rfl, rfl, rfl⟩
  | cons c b ih =>
    intro st hr ht
    rw [loop_step]
    by_cases h1 : c = '\r'
    · rw [lexStep, if_pos h1]
      exact ih hr ht
    · by_cases h2 : c = '\\' ∧ st.esc = false
      · rw [lexStep, if_neg h1, if_pos h2]
        obtain ⟨t, rest, e, h⟩ := ih (st := { st with esc := true }) ⟨hr.space, hr.word, hr.quote, hr.comment, hr.depth⟩ ht
        exact ⟨t, rest, e, h.value, h.line, h.quoted, h.error⟩
      · have hb : GrowsTok st { bump st c with esc := false } ∧ ({ bump st c with esc := false } : LexSt).token = st.token := by
          unfold bump
          split <;> exact ⟨⟨List.prefix_rfl, rfl, rfl⟩, rfl⟩
        rcases hst : lexStep st c with ⟨out, r⟩
        have hstep := hst
        rw [lexStep, if_neg h1, if_neg h2] at hstep
        rcases switch_pending (reach_bump hr c false) (by rw [hb.2]; exact ht) (if st.esc = true then ['\\', c] else [c]) with ⟨t, out', r', e, h⟩ | ⟨st', e, h⟩
        · rw [e] at hstep
          cases hstep
          cases r with
          | none => exact ⟨t, out', rfl, hb.1.goes h⟩
          | some st' => exact ⟨t, _, rfl, hb.1.goes h⟩
        · rw [e] at hstep
          cases hstep
          have hr' := reach_step hr hst
          have ht' : st'.token ≠ [] := by
            intro h0
            have := h.token
            rw [h0, hb.2] at this
            exact ht (List.prefix_nil.mp this)
          obtain ⟨t, rest, e2, h2⟩ := ih hr' ht'
          exact ⟨t, rest, e2, hb.1.goes (h.goes h2)⟩

theorem cut_same {out x y : List Tok} (h : Cut x y) : Cut (out ++ x) (out ++ y) := by
  induction out with
  | nil => exact h
  | cons t out ih => exact .same ih

theorem begins_pending {st : LexSt} (hr : Reach st) (ht : st.token ≠ []) {t' : Tok} (h : GoesTok st t') : Begins (st.emitTok st.tokenStartLine (st.lexState == .inQuote) none) t' := by
  have key : ∀ v : Str, (v = c!"{" ∨ v = c!"}" ∨ v = c!";") → ¬ Mark (st.emitTok st.tokenStartLine (st.lexState == .inQuote) none) v := by
    rintro v hv ⟨h1, h2⟩
    have h1 : (st.lexState == .inQuote) = false := h1
    have h2 : st.token = v := h2
    cases hs : st.lexState with
    | skipSpace => exact ht (hr.space hs)
    | inWord =>
      obtain ⟨c, s, e, c1, c2, c3, c4⟩ := (hr.word (.inl hs)).1
      rw [h2] at e
      rcases hv with rfl | rfl | rfl <;> cases e <;> contradiction
    | inVar =>
      obtain ⟨c, s, e, c1, c2, c3, c4⟩ := (hr.word (.inr hs)).1
      rw [h2] at e
      rcases hv with rfl | rfl | rfl <;> cases e <;> contradiction
    | inComment =>
      obtain ⟨s, e⟩ := hr.comment hs
      rw [h2] at e
      rcases hv with rfl | rfl | rfl <;> cases e
    | inQuote => rw [hs] at h1; cases h1
  refine ⟨h.value, h.line, h.quoted, ⟨rfl, h.error⟩, ht, ⟨key _ (.inl rfl), key _ (.inr (.inl rfl)), key _ (.inr (.inr rfl))⟩, ?_⟩
  obtain ⟨more, hm⟩ := h.value
  constructor
  · rintro ⟨text, h1, h2⟩
    have h2 : st.token = '#' :: text := h2
    exact ⟨text ++ more, h.quoted.trans h1, by rw [← hm, h2]; rfl⟩
  · rintro ⟨text, h1, h2⟩
    refine ⟨st.token.tail, h.quoted.symm.trans h1, ?_⟩
    show st.token = _
    cases hv : st.token with
    | nil => exact absurd hv ht
    | cons c s =>
      rw [hv, h2] at hm
      cases hm
      rfl

/-- The tokens of a text that was cut off. -/
theorem lex_cut (a b : Str) : Cut (lex a) (lex (a ++ b)) := by
  have ha : lex a = contin [] (lexRun {} a) := by
    have := loop_append a [] {}
    rw [List.append_nil] at this
    exact this
  have hab : lex (a ++ b) = contin b (lexRun {} a) := loop_append a b {}
  rw [ha, hab]
  rcases hrun : lexRun {} a with ⟨out, _ | st⟩
  · have := cut_same (out := out) (Cut.between (whole := []))
    simpa [contin] using this
  · have hr := reach_run reach_init hrun
    refine cut_same (out := out) ?_
    show Cut (lexFinish st) (loop st b)
    have hun : ∀ (d : LexSt), d.token = [] → Unclosed (d.emitTok d.tokenStartLine false (some (lexError c!"unexpected end of file, expecting \"}\"" d.tokenLine))) :=
      fun d hd => ⟨hd, rfl, _, rfl, rfl⟩
    unfold lexFinish
    by_cases ht : st.token = []
    · have hlen : ¬ st.token.length > 0 := by simp [ht]
      simp only [if_neg hlen, List.nil_append]
      split
      · exact .betweenOpen (hun st ht)
      · exact .between
    · have hlen : st.token.length > 0 := List.length_pos_iff.mpr ht
      simp only [if_pos hlen]
      obtain ⟨t', rest, e, hg⟩ := loop_pending b hr ht
      rw [e]
      have hB := begins_pending hr ht hg
      split
      · exact .withinOpen hB (hun st.reset rfl)
      · exact .within hB

end Verif
