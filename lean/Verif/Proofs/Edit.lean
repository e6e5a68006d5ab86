import Verif.Spec.Edit
import Verif.Proofs.Inline
import Verif.Proofs.InlineText
import Verif.Props.Cut
import Verif.Props.Concat
/-!
# Statements exchanged in a text
-/
namespace Verif
open Spec

/-! ## What the lexer remembers of the last mark -/

/-- `;`, `{` or `}`. -/
def IsMark (t : Tok) : Prop := Mark t c!";" ∨ Mark t c!"{" ∨ Mark t c!"}"

/-- Between statements or in a comment. -/
def Resting (st : LexSt) : Prop := st.lexState = .skipSpace ∨ st.lexState = .inComment

def Comments (toks : List Tok) : Prop := ∀ t ∈ toks, ∃ text, CommentTok t text

theorem wordTok_start {st : LexSt} {l : Int} (h : WordStart st.token) : WordTok (st.emitTok l false none) := by
  obtain ⟨c, s, e, h1, h2, h3, h4⟩ := h
  refine ⟨?_, ?_, ?_, ?_⟩
  · rintro text ⟨-, h⟩; simp only [LexSt.emitTok, e, List.cons.injEq] at h; exact h1 h.1
  · rintro ⟨-, h⟩; simp only [LexSt.emitTok, e, List.cons.injEq] at h; exact h2 h.1
  · rintro ⟨-, h⟩; simp only [LexSt.emitTok, e, List.cons.injEq] at h; exact h3 h.1
  · rintro ⟨-, h⟩; simp only [LexSt.emitTok, e, List.cons.injEq] at h; exact h4 h.1

theorem rest_special {st st' : LexSt} {la : Str} {out : List Tok} (hl : isSpecial la = true) (h : lexSpecial st la = (out, some st')) :
    ∃ o m, out = o ++ [m] ∧ IsMark m ∧ st'.dupSpecialChar = true := by
  rw [lexSpecial_eq st hl] at h
  split at h
  · cases h
  · split at h
    · cases h
    · cases h
      refine ⟨_, _, rfl, ?_, rfl⟩
      rcases isSpecial_cases hl with rfl | rfl | rfl
      · exact .inr (.inl ⟨rfl, rfl⟩)
      · exact .inr (.inr ⟨rfl, rfl⟩)
      · exact .inl ⟨rfl, rfl⟩

theorem rest_inWord {st st' : LexSt} {la : Str} {out : List Tok} (hs : st.lexState = .inWord) (hw : isSpace la = false ∨ WordStart st.token)
    (h : lexInWord st la = (out, some st')) (hr : Resting st') :
    (out = [] ∧ st.newToken = true ∧ st'.dupSpecialChar = st.dupSpecialChar) ∨ ∃ o m, out = o ++ [m] ∧ (WordTok m ∨ IsMark m ∧ st'.dupSpecialChar = true) := by
  unfold lexInWord at h
  split at h
  · rename_i h1
    cases h
    simp only [Bool.and_eq_true] at h1
    exact .inl ⟨rfl, h1.1, rfl⟩
  · right
    simp only at h
    split at h
    · rename_i hsp
      cases h
      rcases hw with hw | hw
      · rw [hw] at hsp; cases hsp
      · exact ⟨[], _, rfl, .inl (wordTok_start (st := { st with newToken := false }) hw)⟩
    · split at h
      · cases h; simp [Resting] at hr
      · split at h
        · split at h <;> (cases h; simp [hs, Resting] at hr)
        · split at h
          · rename_i hl
            obtain ⟨o, m, h1, h2, h3⟩ := rest_special hl h
            exact ⟨o, m, h1, .inr ⟨h2, h3⟩⟩
          · cases h; simp [hs, Resting] at hr

theorem rest_switch {st st' : LexSt} {la : Str} {out : List Tok} (hr : Reach st) (h : lexSwitch st la = (out, some st')) (hsp : Resting st') :
    (Comments out ∧ Resting st ∧ st'.dupSpecialChar = st.dupSpecialChar) ∨ ∃ o m, out = o ++ [m] ∧ (WordTok m ∨ IsMark m ∧ st'.dupSpecialChar = true) := by
  unfold lexSwitch at h
  split at h
  · rename_i hs
    split at h
    · rename_i hns
      rcases rest_inWord (st := { st with lexState := .inWord, newToken := true, tokenStartLine := st.tokenLine }) rfl (.inl (by simpa using hns)) h hsp with ⟨rfl, -, h3⟩ | h
      · exact .inl ⟨by simp [Comments], .inl hs, h3⟩
      · exact .inr h
    · cases h; exact .inl ⟨by simp [Comments], .inl hs, rfl⟩
  · rename_i hs
    obtain ⟨hw, hn⟩ := hr.word (.inl hs)
    rcases rest_inWord hs (.inr hw) h hsp with ⟨-, h2, -⟩ | h
    · rw [hn] at h2; cases h2
    · exact .inr h
  · rename_i hs
    split at h
    · cases h
      obtain ⟨s, hc⟩ := hr.comment hs
      refine .inl ⟨?_, .inr hs, rfl⟩
      intro t ht
      obtain rfl := List.mem_singleton.mp ht
      exact ⟨s, rfl, hc⟩
    · cases h; exact .inl ⟨by simp [Comments], .inr hs, rfl⟩
  · rename_i hs
    simp only at h
    split at h <;> (cases h; simp [hs, Resting] at hsp)
  · rename_i hs
    split at h
    · cases h
      refine .inr ⟨[], _, rfl, .inl ⟨?_, ?_, ?_, ?_⟩⟩
      · rintro text ⟨h, -⟩; cases h
      · rintro ⟨h, -⟩; cases h
      · rintro ⟨h, -⟩; cases h
      · rintro ⟨h, -⟩; cases h
    · cases h; simp [hs, Resting] at hsp

theorem rest_run : ∀ (s : List Char) {st st' : LexSt} {out : List Tok}, Reach st → lexRun st s = (out, some st') → Resting st' →
    (Comments out ∧ Resting st ∧ st'.dupSpecialChar = st.dupSpecialChar) ∨
    ∃ o m cs, out = o ++ m :: cs ∧ Comments cs ∧ (WordTok m ∨ IsMark m ∧ st'.dupSpecialChar = true) := by
  intro s
  induction s with
  | nil => intro st st' out hr h hsp; cases h; exact .inl ⟨by simp [Comments], hsp, rfl⟩
  | cons c s ih =>
    intro st st' out hr h hsp
    rw [lexRun] at h
    rcases hs : lexStep st c with ⟨o1, _ | st1⟩
    · rw [hs] at h; cases h
    · rw [hs] at h
      simp only [Prod.mk.injEq] at h
      have hr1 := reach_step hr hs
      rcases ih (out := (lexRun st1 s).1) hr1 (Prod.ext rfl h.2) hsp with ⟨k1, k2, k3⟩ | ⟨o, m, cs, k1, k2, k3⟩
      · rw [k3, ← h.1]
        have done : ∀ {st0 : LexSt}, (Comments o1 ∧ Resting st0 ∧ st1.dupSpecialChar = st0.dupSpecialChar) → (Resting st0 ↔ Resting st) → st0.dupSpecialChar = st.dupSpecialChar →
            Comments (o1 ++ (lexRun st1 s).1) ∧ Resting st ∧ st1.dupSpecialChar = st.dupSpecialChar := by
          rintro st0 ⟨j1, j2, j3⟩ e1 e2
          refine ⟨?_, e1.mp j2, j3.trans e2⟩
          intro t ht
          rcases List.mem_append.mp ht with ht | ht
          · exact j1 t ht
          · exact k1 t ht
        by_cases h1 : c = '\r'
        · rw [lexStep, if_pos h1] at hs; cases hs
          exact .inl (done (st0 := st) ⟨by simp [Comments], k2, rfl⟩ .rfl rfl)
        · by_cases h2 : c = '\\' ∧ st.esc = false
          · rw [lexStep, if_neg h1, if_pos h2] at hs; cases hs
            exact .inl (done (st0 := st) ⟨by simp [Comments], k2, rfl⟩ .rfl rfl)
          · rw [lexStep, if_neg h1, if_neg h2] at hs
            have hb := reach_bump hr c false
            rcases rest_switch hb hs k2 with j | ⟨o, m, j1, j2⟩
            · refine .inl (done j ?_ ?_)
              · unfold Resting bump; split <;> rfl
              · unfold bump; split <;> rfl
            · exact .inr ⟨o, m, _, by rw [j1, List.append_assoc]; rfl, k1, j2⟩
      · exact .inr ⟨o1 ++ o, m, cs, by rw [← h.1, k1, List.append_assoc], k2, k3⟩

/-- At a statement, the lexer remembers a mark, or there were only comments. -/
theorem rest_at {s : List Char} {st st' : LexSt} {out : List Tok} (hr : Reach st) (h : lexRun st s = (out, some st')) (hsp : Resting st') (hat : AtStatement out) :
    st'.dupSpecialChar = true ∨ Comments out ∧ st'.dupSpecialChar = st.dupSpecialChar := by
  rcases rest_run s hr h hsp with ⟨h1, -, h2⟩ | ⟨o, m, cs, h1, h2, h3 | ⟨-, h3⟩⟩
  · exact .inr ⟨h1, h2⟩
  · rcases hat o m cs h1 h2 with ⟨text, hc⟩ | hm | hm | hm
    · exact absurd hc (h3.1 _)
    · exact absurd hm h3.2.2.2
    · exact absurd hm h3.2.1
    · exact absurd hm h3.2.2.1
  · exact .inl h3

theorem StartsWithWord.after {cs toks : List Tok} (hc : Comments cs) (h : StartsWithWord (cs ++ toks)) : StartsWithWord toks := by
  intro a t rest e ha
  exact h (cs ++ a) t rest (by rw [e, List.append_assoc]) fun c hm => by
    rcases List.mem_append.mp hm with hm | hm
    · exact hc c hm
    · exact ha c hm

theorem Comments.later {cs : List Tok} (h : Comments cs) (n : Int) : Comments (cs.map (laterTok n)) := by
  intro t ht
  obtain ⟨t', ht', rfl⟩ := List.mem_map.mp ht
  exact h t' ht'

/-- The tokens of a text in which statements are replaced by others. -/
theorem lex_edit {pre s b post : Str} (hpre : Boundary lex pre) (hs : Between s) (hse : ∀ t ∈ lex s, t.error = none) (hss : Shape (lex s))
    (hb : Between b) (hbe : ∀ t ∈ lex b, t.error = none) (hbs : Shape (lex b)) (he : ∀ t ∈ lex (pre ++ (s ++ post)), t.error = none)
    (hst : StartsWithWord (lex (pre ++ (s ++ post)))) :
    ∃ T1 T2, (lex pre).filter (·.error == none) = T1 ∧ AtStatement T1 ∧ lex (pre ++ (s ++ post)) = T1 ++ ((lex s).map (laterTok (nls pre)) ++ T2) ∧
      lex (pre ++ (b ++ post)) = T1 ++ ((lex b).map (laterTok (nls pre)) ++ T2.map (laterTok (nls b - nls s))) := by
  rcases hrun : lexRun {} pre with ⟨out, _ | st⟩
  · obtain ⟨t, ht, hte⟩ := stop_run hrun
    refine absurd (he t ?_) hte
    rw [lex_eq_loop, loop_append, hrun]
    exact ht
  have hr : Reach st := reach_run reach_init hrun
  have hout : ∀ t ∈ out, t.error = none := by
    intro t ht
    refine he t ?_
    rw [lex_eq_loop, loop_append, hrun]
    exact List.mem_append_left _ ht
  obtain ⟨f1, f2, f3⟩ := boundary_state hpre hrun hout
  have hat : AtStatement out := by rw [← f3]; exact hpre.at
  obtain ⟨st2, a1, a2, a3, a4, -⟩ := lines_run hs hse hss hr f1 f2
  obtain ⟨st1, b1, b2, b3, b4, -⟩ := lines_run hb hbe hbs hr f1 f2
  have e2 : lex (pre ++ (s ++ post)) = out ++ ((lex s).map (laterTok (st.tokenLine - 1)) ++ loop st2 post) := by
    rw [lex_eq_loop, loop_append, hrun]
    simp only [contin]
    rw [loop_append, a1]
    rfl
  have e1 : lex (pre ++ (b ++ post)) = out ++ ((lex b).map (laterTok (st.tokenLine - 1)) ++ loop st1 post) := by
    rw [lex_eq_loop, loop_append, hrun]
    simp only [contin]
    rw [loop_append, b1]
    rfl
  have hr2 : Reach st2 := reach_run hr a1
  have hr1 : Reach st1 := reach_run hr b1
  have hdup : (st1.dupSpecialChar = true → st2.dupSpecialChar = true) ∨ (st2.lexState = .skipSpace ∨ st2.lexState = .inComment) ∧ StartsWithWord (loop st2 post) := by
    rcases rest_at hr a1 (.inl a2) (hss.later _).at_statement with h | ⟨h, h'⟩
    · exact .inl fun _ => h
    · rcases rest_at reach_init hrun (.inl f1) hat with k | ⟨k, -⟩
      · exact .inl fun _ => h'.trans k
      · refine .inr ⟨.inl a2, ?_⟩
        rw [e2] at hst
        exact StartsWithWord.after h (StartsWithWord.after k hst)
  have hl : loop st1 post = (loop st2 post).map (laterTok (st1.tokenLine - st2.tokenLine)) := by
    refine later_loop post hr2 (b3.trans a3.symm) ⟨b2.trans a2.symm, (hr1.space b2).trans (hr2.space a2).symm, by rw [b4, a4]; simp, by omega,
      fun h => absurd a2 h, by simp [a2], by simp [a2], hdup⟩ ?_
    intro t ht
    refine he t ?_
    rw [e2]
    exact List.mem_append_right _ (List.mem_append_right _ ht)
  have l1 : st.tokenLine - 1 = nls pre := by have := line_run hrun; show _ = _; rw [this]; show 1 + nls pre - 1 = _; omega
  have l2 : st1.tokenLine - st2.tokenLine = nls b - nls s := by have h1 := line_run b1; have h2 := line_run a1; omega
  exact ⟨out, loop st2 post, f3, hat, by rw [e2, l1], by rw [e1, hl, l1, l2]⟩

/-! ## Statements in a list of tokens -/

/-- Opening braces count 1, closing braces -1. -/
def brace1 (t : Tok) : Int := if t.quoted = false ∧ t.value = c!"{" then 1 else if t.quoted = false ∧ t.value = c!"}" then -1 else 0

def braceSum (toks : List Tok) : Int := (toks.map brace1).sum

theorem braceSum_append (a b : List Tok) : braceSum (a ++ b) = braceSum a + braceSum b := by simp [braceSum]

theorem braceSum_cons (t : Tok) (b : List Tok) : braceSum (t :: b) = brace1 t + braceSum b := by simp [braceSum]

theorem brace1_open {t : Tok} (h : Mark t c!"{") : brace1 t = 1 := by unfold brace1; rw [if_pos ⟨h.1, h.2⟩]

theorem brace1_close {t : Tok} (h : Mark t c!"}") : brace1 t = -1 := by unfold brace1; simp [h.1, h.2]

theorem brace1_other {t : Tok} (h1 : ¬ Mark t c!"{") (h2 : ¬ Mark t c!"}") : brace1 t = 0 := by
  unfold brace1
  rw [if_neg (fun h => h1 ⟨h.1, h.2⟩), if_neg (fun h => h2 ⟨h.1, h.2⟩)]

theorem brace1_semi {t : Tok} (h : Mark t c!";") : brace1 t = 0 :=
  brace1_other (fun h' => by have := h.2; rw [h'.2] at this; cases this) (fun h' => by have := h.2; rw [h'.2] at this; cases this)

theorem brace1_word {t : Tok} (h : WordTok t) : brace1 t = 0 := brace1_other h.2.1 h.2.2.1

theorem brace1_comment {t : Tok} {text : Str} (h : CommentTok t text) : brace1 t = 0 :=
  brace1_other (fun h' => mark_not_comment (.inr (.inl h')) h) (fun h' => mark_not_comment (.inr (.inr h')) h)

/-- All sums are at least 0. -/
def Above (toks : List Tok) : Prop := ∀ p, p <+: toks → 0 ≤ braceSum p

theorem Above.cons {t : Tok} {toks : List Tok} (h : brace1 t = 0) (ha : Above toks) : Above (t :: toks) := by
  intro p hp
  rcases List.prefix_cons_iff.mp hp with rfl | ⟨p', rfl, hp'⟩
  · simp [braceSum]
  · rw [braceSum_cons, h]
    simpa using ha p' hp'

theorem Above.append {a b : List Tok} (ha : Above a) (h : braceSum a = 0) (hb : Above b) : Above (a ++ b) := by
  rintro p ⟨q, e⟩
  rcases List.append_eq_append_iff.mp e with ⟨c, rfl, -⟩ | ⟨c, rfl, e2⟩
  · exact ha p (List.prefix_append _ _)
  · rw [braceSum_append, h]
    simpa using hb c ⟨q, e2.symm⟩

theorem Spec.Words.sums {mid : List Tok} {args texts : List Str} (h : Words mid args texts) : braceSum mid = 0 ∧ Above mid := by
  induction h with
  | nil => exact ⟨rfl, fun p hp => by rw [List.prefix_nil.mp hp]; simp [braceSum]⟩
  | word hw _ ih => exact ⟨by rw [braceSum_cons, brace1_word hw, ih.1]; rfl, .cons (brace1_word hw) ih.2⟩
  | comment hc _ ih => exact ⟨by rw [braceSum_cons, brace1_comment hc, ih.1]; rfl, .cons (brace1_comment hc) ih.2⟩

theorem Spec.Shape.sums {toks : List Tok} (h : Shape toks) : braceSum toks = 0 ∧ Above toks := by
  induction h with
  | nil => exact ⟨rfl, fun p hp => by rw [List.prefix_nil.mp hp]; simp [braceSum]⟩
  | comment hc _ ih => exact ⟨by rw [braceSum_cons, brace1_comment hc, ih.1]; rfl, .cons (brace1_comment hc) ih.2⟩
  | simple hw hws hs _ ih =>
    refine ⟨by rw [braceSum_cons, braceSum_append, braceSum_cons, brace1_word hw, hws.sums.1, brace1_semi hs, ih.1]; rfl, ?_⟩
    exact .cons (brace1_word hw) (.append hws.sums.2 hws.sums.1 (.cons (brace1_semi hs) ih.2))
  | @block t mid args texts opening inner closing toks hw hws ho _ hcl _ ih1 ih2 =>
    refine ⟨by rw [braceSum_cons, braceSum_append, braceSum_cons, braceSum_append, braceSum_cons, brace1_word hw, hws.sums.1, brace1_open ho, ih1.1, brace1_close hcl, ih2.1]; rfl, ?_⟩
    refine .cons (brace1_word hw) (.append hws.sums.2 hws.sums.1 ?_)
    have e : opening :: (inner ++ closing :: toks) = (opening :: (inner ++ [closing])) ++ toks := by simp
    rw [e]
    refine .append ?_ (by rw [braceSum_cons, braceSum_append, braceSum_cons, brace1_open ho, ih1.1, brace1_close hcl]; rfl) ih2.2
    intro p hp
    rcases List.prefix_cons_iff.mp hp with rfl | ⟨p', rfl, hp'⟩
    · simp [braceSum]
    · rw [braceSum_cons, brace1_open ho]
      rcases List.prefix_concat_iff.mp hp' with rfl | hp'
      · rw [braceSum_append, ih1.1, braceSum_cons, brace1_close hcl]; simp [braceSum]
      · have := ih1.2 p' hp'
        omega

/-- Where statements are in a list of tokens with a closing brace. -/
theorem stmts_split {inner toks T X Y : List Tok} {closing : Tok} (hc : Mark closing c!"}") (hi : Shape inner) (hX : Shape X)
    (e : inner ++ closing :: toks = T ++ (X ++ Y)) :
    (∃ T', T = inner ++ closing :: T' ∧ toks = T' ++ (X ++ Y)) ∨ ∃ Y', inner = T ++ (X ++ Y') ∧ Y = Y' ++ closing :: toks := by
  rcases List.append_eq_append_iff.mp e with ⟨a, rfl, h2⟩ | ⟨a, rfl, h2⟩
  · cases a with
    | nil =>
      right
      cases X with
      | nil => exact ⟨[], by simp, by simpa using h2.symm⟩
      | cons x X =>
        simp only [List.nil_append, List.cons_append, List.cons.injEq] at h2
        exact absurd (.inr (.inl (h2.1 ▸ hc))) (hX.starts [] x X rfl (by simp))
    | cons c a =>
      simp only [List.cons_append, List.cons.injEq] at h2
      obtain ⟨rfl, rfl⟩ := h2
      exact .inl ⟨a, rfl, rfl⟩
  · right
    rcases List.append_eq_append_iff.mp h2 with ⟨b, rfl, h4⟩ | ⟨b, rfl, h4⟩
    · exact ⟨b, rfl, h4⟩
    · cases b with
      | nil => exact ⟨[], by simp, by simpa using h4.symm⟩
      | cons x b =>
        simp only [List.cons_append, List.cons.injEq] at h4
        obtain ⟨rfl, -⟩ := h4
        have k1 := hX.sums.2 (a ++ [closing]) ⟨b, by simp⟩
        have k2 := hi.sums.2 T (List.prefix_append _ _)
        have k3 := hi.sums.1
        rw [braceSum_append, braceSum_cons, brace1_close hc] at k1
        rw [braceSum_append] at k3
        simp only [braceSum, List.map_nil, List.sum_nil] at *
        omega

/-! ## The context at a place in a list of tokens -/

theorem stackAt_comment {t : Tok} {text : Str} (h : CommentTok t text) (st : List (List Str)) (w : Option Str) (toks : List Tok) :
    stackAt st w (t :: toks) = stackAt st w toks := by
  rw [stackAt, if_pos ⟨h.1, by rw [h.2]; rfl⟩]

theorem stackAt_semi {t : Tok} (h : Mark t c!";") (st : List (List Str)) (w : Option Str) (toks : List Tok) :
    stackAt st w (t :: toks) = stackAt st none toks := by
  rw [stackAt, if_neg (by rw [h.2]; simp), if_pos ⟨h.1, h.2⟩]

theorem stackAt_open {t : Tok} (h : Mark t c!"{") (st : List (List Str)) (w : Option Str) (toks : List Tok) :
    stackAt st w (t :: toks) = stackAt (enter (st.headD []) (w.getD []) :: st) none toks := by
  rw [stackAt, if_neg (by rw [h.2]; simp), if_neg (by rw [h.2]; simp), if_pos ⟨h.1, h.2⟩]

theorem stackAt_close {t : Tok} (h : Mark t c!"}") (st : List (List Str)) (w : Option Str) (toks : List Tok) :
    stackAt st w (t :: toks) = stackAt st.tail none toks := by
  rw [stackAt, if_neg (by rw [h.2]; simp), if_neg (by rw [h.2]; simp), if_neg (by rw [h.2]; simp), if_pos ⟨h.1, h.2⟩]

theorem stackAt_word {t : Tok} (h : WordTok t) (st : List (List Str)) (w : Option Str) (toks : List Tok) :
    stackAt st w (t :: toks) = stackAt st (some (w.getD t.value)) toks := by
  rw [stackAt, if_neg, if_neg fun h' => h.2.2.2 ⟨h'.1, h'.2⟩, if_neg fun h' => h.2.1 ⟨h'.1, h'.2⟩, if_neg fun h' => h.2.2.1 ⟨h'.1, h'.2⟩]
  rintro ⟨h1, h2⟩
  obtain ⟨s, hs⟩ := List.head?_eq_some_iff.mp h2
  exact h.1 s ⟨h1, hs⟩

theorem stackAt_words {mid : List Tok} {args texts : List Str} (h : Words mid args texts) (st : List (List Str)) (w : Str) (toks : List Tok) :
    stackAt st (some w) (mid ++ toks) = stackAt st (some w) toks := by
  induction h with
  | nil => rfl
  | word hw _ ih => rw [List.cons_append, stackAt_word hw]; exact ih
  | comment hc _ ih => rw [List.cons_append, stackAt_comment hc]; exact ih

theorem stackAt_shape {x : List Tok} (h : Shape x) : ∀ (st : List (List Str)) (toks : List Tok), stackAt st none (x ++ toks) = stackAt st none toks := by
  induction h with
  | nil => intro st toks; rfl
  | comment hc _ ih => intro st toks; rw [List.cons_append, stackAt_comment hc]; exact ih _ _
  | simple hw hws hs _ ih =>
    intro st toks
    rw [List.cons_append, List.append_assoc, stackAt_word hw, stackAt_words hws, List.cons_append, stackAt_semi hs]
    exact ih _ _
  | block hw hws ho _ hc _ ih1 ih2 =>
    intro st toks
    rw [List.cons_append, List.append_assoc, stackAt_word hw, stackAt_words hws, List.cons_append, stackAt_open ho, List.append_assoc, ih1, List.cons_append, stackAt_close hc]
    exact ih2 _ _

/-- After these tokens, in a block with the context `ctx`, the context is `ctx'`. -/
def LeadsTo (ctx : List Str) (toks : List Tok) (ctx' : List Str) : Prop := ∀ st, (stackAt (ctx :: st) none toks).headD [] = ctx'

theorem LeadsTo.nil (ctx : List Str) : LeadsTo ctx [] ctx := fun _ => rfl

theorem LeadsTo.after {ctx ctx' : List Str} {x toks : List Tok} (hx : Shape x) (h : LeadsTo ctx toks ctx') : LeadsTo ctx (x ++ toks) ctx' := fun st => by
  rw [stackAt_shape hx]; exact h st

theorem LeadsTo.enter {ctx ctx' : List Str} {t opening : Tok} {mid toks : List Tok} {args texts : List Str} (ht : WordTok t) (hw : Words mid args texts) (ho : Mark opening c!"{")
    (h : LeadsTo (enter ctx t.value) toks ctx') : LeadsTo ctx (t :: (mid ++ opening :: toks)) ctx' := fun st => by
  rw [stackAt_word ht, stackAt_words hw, stackAt_open ho]; exact h _

/-! ## Statements of which some are exchanged are statements -/

theorem Spec.Shape.divide {x : List Tok} (hx : Shape x) : ∀ {y : List Tok}, Shape (x ++ y) → Shape y := by
  have semiOpen : ∀ {t : Tok}, Mark t c!";" → ¬ Mark t c!"{" := by
    rintro t ⟨-, h⟩ ⟨-, h'⟩
    rw [h] at h'
    cases h'
  induction hx with
  | nil => intro y h; exact h
  | @comment t text toks hc _ ih =>
    intro y h
    generalize ew : t :: toks ++ y = w at h
    cases h with
    | nil => cases ew
    | comment h1 h2 => cases ew; exact ih h2
    | simple hw => obtain ⟨rfl, -⟩ := List.cons.inj ew; exact absurd hc (hw.1 _)
    | block hw => obtain ⟨rfl, -⟩ := List.cons.inj ew; exact absurd hc (hw.1 _)
  | @simple t mid args texts semi toks hw hws hs _ ih =>
    intro y h
    generalize ew : t :: (mid ++ semi :: toks) ++ y = w at h
    simp only [List.cons_append, List.append_assoc] at ew
    cases h with
    | nil => cases ew
    | comment h2 => obtain ⟨rfl, -⟩ := List.cons.inj ew; exact absurd h2 (hw.1 _)
    | simple h2 h3 h4 h5 =>
      simp only [List.cons.injEq] at ew
      obtain ⟨rfl, e⟩ := ew
      obtain ⟨rfl, rfl, rfl, rfl, rfl⟩ := hws.split h3 (.inl hs) (.inl h4) e
      exact ih h5
    | block h2 h3 h4 =>
      simp only [List.cons.injEq] at ew
      obtain ⟨rfl, e⟩ := ew
      obtain ⟨rfl, rfl, rfl, rfl, -⟩ := hws.split h3 (.inl hs) (.inr (.inl h4)) e
      exact absurd h4 (semiOpen hs)
  | @block t mid args texts opening inner closing toks hw hws ho hin hcl _ _ ih =>
    intro y h
    generalize ew : t :: (mid ++ opening :: (inner ++ closing :: toks)) ++ y = w at h
    simp only [List.cons_append, List.append_assoc] at ew
    cases h with
    | nil => cases ew
    | comment h2 => obtain ⟨rfl, -⟩ := List.cons.inj ew; exact absurd h2 (hw.1 _)
    | simple h2 h3 h4 =>
      simp only [List.cons.injEq] at ew
      obtain ⟨rfl, e⟩ := ew
      obtain ⟨rfl, rfl, rfl, rfl, -⟩ := hws.split h3 (.inr (.inl ho)) (.inl h4) e
      exact absurd ho (semiOpen h4)
    | block h2 h3 h4 h5 h6 h7 =>
      simp only [List.cons.injEq] at ew
      obtain ⟨rfl, e⟩ := ew
      obtain ⟨rfl, rfl, rfl, rfl, e2⟩ := hws.split h3 (.inr (.inl ho)) (.inr (.inl h4)) e
      obtain ⟨rfl, rfl, rfl⟩ := hin.split h5 hcl h6 e2
      exact ih h7

theorem Spec.Shape.exchange {S S' : List Tok} (hS : Shape S) (hS' : Shape S') {toks : List Tok} (h : Shape toks) :
    ∀ {T1 T2 : List Tok}, AtStatement T1 → toks = T1 ++ (S ++ T2) → Shape (T1 ++ (S' ++ T2)) := by
  have here : ∀ {T2 : List Tok}, Shape (S ++ T2) → Shape ([] ++ (S' ++ T2)) := fun h => hS'.append (hS.divide h)
  induction h with
  | nil =>
    intro T1 T2 _ e
    obtain ⟨rfl, e2⟩ := List.append_eq_nil_iff.mp e.symm
    exact here (by rw [e2]; exact .nil)
  | comment h1 h2 ih =>
    intro T1 T2 hat e
    rcases hat.cons e with rfl | ⟨T', rfl, e', hat'⟩
    · exact here (by rw [List.nil_append] at e; rw [← e]; exact .comment h1 h2)
    · exact .comment h1 (ih hat' e')
  | simple h1 h2 h3 h4 ih =>
    intro T1 T2 hat e
    rcases hat.split h1 h2 e with rfl | ⟨T', rfl, e', hat'⟩
    · exact here (by rw [List.nil_append] at e; rw [← e]; exact .simple h1 h2 h3 h4)
    · rw [List.cons_append, List.append_assoc, List.cons_append]
      exact .simple h1 h2 h3 (ih hat' e')
  | @block t mid args texts opening inner closing toks h1 h2 h3 h4 h5 h6 ih1 ih2 =>
    intro T1 T2 hat e
    rcases hat.split h1 h2 e with rfl | ⟨T', rfl, e', hat'⟩
    · exact here (by rw [List.nil_append] at e; rw [← e]; exact .block h1 h2 h3 h4 h5 h6)
    · rcases stmts_split h5 h4 hS e' with ⟨T'', rfl, e2⟩ | ⟨Y', e2, rfl⟩
      · have hat2 : AtStatement T'' := by
          have : inner ++ closing :: T'' = (inner ++ [closing]) ++ T'' := by simp
          rw [this] at hat'
          exact hat'.suffix
        have := Shape.block h1 h2 h3 h4 h5 (ih2 hat2 e2)
        simpa using this
      · have := Shape.block h1 h2 h3 (ih1 hat' e2) h5 h6
        simpa using this

/-! ## Statements exchanged in a configuration -/

theorem Spec.Exchanged.before {n : Int} {x y ds ds' : List Directive} (h : Exchanged n x y ds ds') (a : List Directive) : Exchanged n x y (a ++ ds) (a ++ ds') := by
  cases h with
  | @here b c => rw [← List.append_assoc, ← List.append_assoc a b]; exact .here
  | inside h hc => rw [← List.append_assoc, ← List.append_assoc]; exact .inside h hc

theorem comments_line {b : Bool} {line : Int} {texts : List Str} : ∀ c ∈ (if b then commentsAt line texts else []), c.directive = c!"#" ∧ c.line = line := by
  intro c hc
  cases b with
  | false => simp at hc
  | true =>
    simp only [if_true, commentsAt, List.mem_map] at hc
    obtain ⟨text, -, rfl⟩ := hc
    exact ⟨rfl, rfl⟩

/-- Some statements of a configuration are replaced by others, some of which may be wrong. -/
theorem Spec.Conf.exchange {r : Rules} (hi : r.ignore = []) {S : List Tok} (hS : Shape S) {ctx : List Str} {ds : List Directive} {toks : List Tok} (h : Conf r ctx ds toks) :
    ∀ {T1 T2 : List Tok}, AtStatement T1 → toks = T1 ++ (S ++ T2) →
    ∃ ctx' x, LeadsTo ctx T1 ctx' ∧ Conf r ctx' x S ∧ ∀ n S' y ls, Recover r ctx' y ls S' →
      ∃ ds', Exchanged n x y ds ds' ∧ Recover r ctx ds' ls (T1 ++ (S' ++ T2.map (laterTok n))) := by
  have here : ∀ {ctx : List Str} {ds : List Directive} {T2 : List Tok}, Conf r ctx ds (S ++ T2) →
      ∃ ctx' x, LeadsTo ctx [] ctx' ∧ Conf r ctx' x S ∧ ∀ n S' y ls, Recover r ctx' y ls S' →
        ∃ ds', Exchanged n x y ds ds' ∧ Recover r ctx ds' ls ([] ++ (S' ++ T2.map (laterTok n))) := by
    intro ctx ds T2 h
    obtain ⟨d1, d2, rfl, k1, k2⟩ := h.divide hS
    exact ⟨ctx, d1, .nil ctx, k1, fun n S' y ls hy => ⟨y ++ laterList n d2, .here (before := []), by simpa using hy.append (k2.recover.later n)⟩⟩
  induction h with
  | nil =>
    intro T1 T2 _ e
    obtain ⟨rfl, e2⟩ := List.append_eq_nil_iff.mp e.symm
    exact here (by rw [e2]; exact .nil)
  | comment h1 h2 h3 ih =>
    intro T1 T2 hat e
    rcases hat.cons e with rfl | ⟨T', rfl, e', hat'⟩
    · exact here (by rw [List.nil_append] at e; rw [← e]; exact .comment h1 h2 h3)
    · obtain ⟨c, x, k0, k1, k2⟩ := ih hat' e'
      refine ⟨c, x, LeadsTo.after (.comment h2 .nil) k0, k1, fun n S' y ls hy => ?_⟩
      obtain ⟨ds', k3, k4⟩ := k2 n S' y ls hy
      exact ⟨_, k3.before [_], .comment h1 h2 k4⟩
  | skip h1 h2 h3 ih =>
    intro T1 T2 hat e
    rcases hat.cons e with rfl | ⟨T', rfl, e', hat'⟩
    · exact here (by rw [List.nil_append] at e; rw [← e]; exact .skip h1 h2 h3)
    · obtain ⟨c, x, k0, k1, k2⟩ := ih hat' e'
      refine ⟨c, x, LeadsTo.after (.comment h2 .nil) k0, k1, fun n S' y ls hy => ?_⟩
      obtain ⟨ds', k3, k4⟩ := k2 n S' y ls hy
      exact ⟨_, k3, .skip h1 h2 k4⟩
  | param h1 h2 h3 h4 h5 h6 ih =>
    intro T1 T2 hat e
    rcases hat.split h2 h3 e with rfl | ⟨T', rfl, e', hat'⟩
    · exact here (by rw [List.nil_append] at e; rw [← e]; exact .param h1 h2 h3 h4 h5 h6)
    · obtain ⟨c, x, k0, k1, k2⟩ := ih hat' e'
      refine ⟨c, x, by simpa using LeadsTo.after (.simple h2 h3 h4 .nil) k0, k1, fun n S' y ls hy => ?_⟩
      obtain ⟨ds', k3, k4⟩ := k2 n S' y ls hy
      rw [List.cons_append, List.append_assoc, List.cons_append]
      exact ⟨_, k3.before [_], .param h1 h2 h3 h4 h5 k4⟩
  | ignored _ h => rw [hi] at h; cases h
  | ignoredBlock _ h => rw [hi] at h; cases h
  | simple h1 h2 h3 h4 h5 h6 h7 h8 h9 ih =>
    intro T1 T2 hat e
    rcases hat.split h3 h4 e with rfl | ⟨T', rfl, e', hat'⟩
    · exact here (by rw [List.nil_append] at e; rw [← e]; exact .simple h1 h2 h3 h4 h5 h6 h7 h8 h9)
    · obtain ⟨c, x, k0, k1, k2⟩ := ih hat' e'
      refine ⟨c, x, by simpa using LeadsTo.after (.simple h3 h4 h5 .nil) k0, k1, fun n S' y ls hy => ?_⟩
      obtain ⟨ds', k3, k4⟩ := k2 n S' y ls hy
      rw [List.cons_append, List.append_assoc, List.cons_append]
      exact ⟨_, (k3.before _).before [_], .simple h1 h2 h3 h4 h5 h6 h7 h8 k4⟩
  | @block ctx t mid args args' texts opening b inner closing ds toks h1 h2 h3 h4 h5 h6 h7 h8 hb h9 h10 ih1 ih2 =>
    intro T1 T2 hat e
    rcases hat.split h3 h4 e with rfl | ⟨T', rfl, e', hat'⟩
    · exact here (by rw [List.nil_append] at e; rw [← e]; exact .block h1 h2 h3 h4 h5 h6 h7 h8 hb h9 h10)
    · rcases stmts_split h9 hb.shape hS e' with ⟨T'', rfl, e2⟩ | ⟨Y', e2, rfl⟩
      · have hat2 : AtStatement T'' := by
          have : inner ++ closing :: T'' = (inner ++ [closing]) ++ T'' := by simp
          rw [this] at hat'
          exact hat'.suffix
        obtain ⟨c, x, k0, k1, k2⟩ := ih2 hat2 e2
        refine ⟨c, x, by simpa using LeadsTo.after (.block h3 h4 h5 hb.shape h9 .nil) k0, k1, fun n S' y ls hy => ?_⟩
        obtain ⟨ds', k3, k4⟩ := k2 n S' y ls hy
        refine ⟨_, (k3.before _).before [_], ?_⟩
        have := Recover.block h1 h2 h3 h4 h5 h6 h7 h8 hb.recover h9 k4
        simpa using this
      · obtain ⟨c, x, k0, k1, k2⟩ := ih1 hat' e2
        refine ⟨c, x, k0.enter h3 h4 h5, k1, fun n S' y ls hy => ?_⟩
        obtain ⟨b', k3, k4⟩ := k2 n S' y ls hy
        have := Recover.block (closing := laterTok n closing) h1 h2 h3 h4 h5 h6 h7 h8 k4 h9 (h10.recover.later n)
        refine ⟨_, .inside (before := []) (d := { directive := t.value, line := t.line, args := args' }) k3 comments_line, ?_⟩
        simpa using this

theorem laterList_back (k : Int) (ds : List Directive) : laterList k (laterList (-k) ds) = ds := by
  have key : ∀ d : Directive, later k (later (-k) d) = d := by
    intro d
    induction d using Directive.ind with
    | h dd dl da df di db dc dm ih =>
      have hl : ∀ l : List Directive, (∀ d ∈ l, later k (later (-k) d) = d) → laterList k (laterList (-k) l) = l := by
        intro l hl
        induction l with
        | nil => rfl
        | cons d l ihl => rw [laterList, laterList, hl d (.head _), ihl fun x hx => hl x (.tail _ hx)]
      cases db with
      | none => simp [later, laterOpt]
      | some ds => simp [later, laterOpt, hl ds (ih ds rfl)]
  induction ds with
  | nil => rfl
  | cons d ds ih => rw [laterList, laterList, key, ih]

/-- A text that is some statements. -/
structure StmtText (s : Str) : Prop where
  boundary : Boundary lex s
  noError : ∀ t ∈ lex s, t.error = none
  shape : Shape (lex s)

/-- What there is to know of a text and the same text with other statements in place of some. -/
theorem edit_toks {pre s s' post : Str} {r : Rules} {ctx0 : List Str} {ds : List Directive} (hi : r.ignore = []) (hpre : Boundary lex pre) (hs : StmtText s) (hs' : StmtText s')
    (he : ∀ t ∈ lex (pre ++ (s ++ post)), t.error = none) (hc : Conf r ctx0 ds (lex (pre ++ (s ++ post)))) :
    let ctx := contextAt ((lex pre).filter (·.error == none)) ctx0
    (∀ t ∈ lex (pre ++ (s' ++ post)), t.error = none) ∧ Shape (lex (pre ++ (s' ++ post))) ∧ ∃ x, Conf r ctx x (lex s) ∧
      (∀ y ls, Recover r ctx y ls (lex s') → ∃ ds', Exchanged (nls s' - nls s) (laterList (nls pre) x) (laterList (nls pre) y) ds ds' ∧
        Recover r ctx0 ds' (ls.map (· + nls pre)) (lex (pre ++ (s' ++ post)))) ∧
      ∀ ds', Conf r ctx0 ds' (lex (pre ++ (s' ++ post))) → ∃ y, Conf r ctx y (lex s') := by
  intro ctx
  obtain ⟨T1, T2, f1, hat, e1, e2⟩ := lex_edit hpre (hs.boundary.between hs.noError) hs.noError hs.shape
    (hs'.boundary.between hs'.noError) hs'.noError hs'.shape he hc.shape.starts
  have hplace : ∀ c, LeadsTo ctx0 T1 c → c = ctx := fun c hl => by
    have := hl []
    rw [← this]
    show _ = contextAt _ _
    rw [f1]
    rfl
  have lat : ∀ (l : List Tok) (k : Int), (l.map (laterTok k)).map noLine = l.map noLine := fun l k => by rw [List.map_map]; rfl
  have back : ∀ {c : List Str} {x1 : List Directive} {l : List Tok} {k : Int}, Conf r c x1 (l.map (laterTok k)) → ∃ x, Conf r c x l ∧ x1 = laterList k x := by
    intro c x1 l k hx
    have hx2 := hx.recover.later (-k)
    rw [List.map_map, List.map_nil] at hx2
    have el : l.map (laterTok (-k) ∘ laterTok k) = l := by
      rw [show (laterTok (-k) ∘ laterTok k) = id from funext fun t => by simp [laterTok]]
      exact List.map_id _
    rw [el] at hx2
    exact ⟨_, hx2.conf rfl, (laterList_back k x1).symm⟩
  have hin : ∀ t ∈ lex (pre ++ (s' ++ post)), t.error = none := by
    rw [e2]
    intro t ht
    have hm : ∀ t ∈ T1 ++ ((lex s).map (laterTok (nls pre)) ++ T2), t.error = none := by rw [← e1]; exact he
    simp only [List.mem_append, List.mem_map] at ht hm
    rcases ht with ht | ⟨t', ht, rfl⟩ | ⟨t', ht, rfl⟩
    · exact hm t (.inl ht)
    · exact hs'.noError t' ht
    · exact hm t' (.inr (.inr ht))
  have hsh : Shape (lex (pre ++ (s' ++ post))) := by
    refine noLine_shape (hs.shape.later (nls pre) |>.exchange (hs'.shape.later (nls pre)) hc.shape hat e1) ?_
    rw [e2]
    simp only [List.map_append, lat]
  obtain ⟨c, x1, k0, k1, k2⟩ := hc.exchange hi (hs.shape.later _) hat e1
  obtain rfl := hplace c k0
  obtain ⟨x, hx, rfl⟩ := back k1
  refine ⟨hin, hsh, x, hx, fun y ls hy => ?_, fun ds' hd => ?_⟩
  · obtain ⟨d1, hd, hd1⟩ := k2 (nls s' - nls s) _ _ _ (hy.later (nls pre))
    refine ⟨d1, hd, ?_⟩
    rw [e2]
    exact hd1
  · obtain ⟨c2, y1, j0, j1, -⟩ := hd.exchange hi (hs'.shape.later _) hat e2
    rw [hplace c2 j0] at j1
    obtain ⟨y, hy, -⟩ := back j1
    exact ⟨y, hy⟩

end Verif
