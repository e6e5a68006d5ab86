import Verif.Spec.Nginx
import Verif.Props.Lexer
import Mathlib.Tactic.SplitIfs
/-!
# C99: the lexer and nginx's own reader
-/
namespace Verif
open Spec

/-- Comments are tokens of the lexer but nothing for nginx. -/
def commentTok (t : Tok) : Bool := !t.quoted && t.value.head? == some '#'

/-- Value and mark of the tokens that are not comments. -/
def shownToks (toks : List Tok) : List (Str × Bool) := (toks.filter fun t => !commentTok t).map fun t => (t.value, t.quoted)

/-- A word that was begun becomes a parameter. -/
theorem ngx_word : ∀ (s : Str) {st : NgxSt} {toks : List NgxTok}, st.pos = .word → ngxRun st s = some toks → ∃ v toks', toks = .word v none :: toks' ∧ st.raw <+: v := by
  intro s
  induction s with
  | nil => intro st toks hp h; simp [ngxRun, hp] at h
  | cons c cs ih =>
    intro st toks hp h
    rw [ngxRun, Option.bind_eq_some_iff] at h
    obtain ⟨⟨o, st'⟩, h1, h2⟩ := h
    obtain ⟨r, h3, rfl⟩ := Option.map_eq_some_iff.mp h2
    have more : o = [] → st'.pos = .word → st'.raw = st.raw ++ [c] → ∃ v toks', o ++ r = .word v none :: toks' ∧ st.raw <+: v := by
      rintro rfl e1 e2
      obtain ⟨v, t, e3, e4⟩ := ih e1 h3
      exact ⟨v, t, e3, (List.prefix_append _ _).trans (e2 ▸ e4)⟩
    simp only [ngxStep, hp] at h1
    split_ifs at h1
    all_goals first
      | (cases h1; exact more rfl hp rfl)
      | (cases h1; exact more rfl rfl rfl)
      | (cases h1; exact ⟨_, _, rfl, List.prefix_rfl⟩)
      | skip

/-- A quoted string. -/
theorem ngx_quoted {q : Char} (hq : q ≠ '\\') {rest : Str} {args depth : Nat} : ∀ (us : List U) (raw : Str), (∀ u ∈ us, u.wf ∧ u ≠ .plain q) →
    ngxRun { pos := .quoted q, raw := raw, args := args, depth := depth } (textOf us ++ q :: rest) =
      (ngxRun { pos := .need, args := args + 1, depth := depth } rest).map fun t => .word (raw ++ textOf us) (some q) :: t := by
  intro us
  induction us with
  | nil =>
    intro raw _
    simp [textOf, ngxRun, ngxStep, hq]
  | cons u us ih =>
    intro raw hu
    have hi := fun raw => ih raw fun u hu' => hu u (.tail _ hu')
    have h0 := hu u (.head _)
    cases u with
    | plain c =>
      have h1 : c ≠ '\\' := h0.1.1
      have h2 : c ≠ q := fun e => h0.2 (by rw [e])
      have e : textOf (.plain c :: us) = c :: textOf us := rfl
      rw [e, List.cons_append, ngxRun]
      simp only [ngxStep, Bool.false_eq_true, if_false, h1, h2, Option.bind_some, hi, List.nil_append, List.append_assoc, List.cons_append, Option.map_map, Function.comp_def]
    | esc c =>
      have e : textOf (.esc c :: us) = '\\' :: c :: textOf us := rfl
      rw [e, List.cons_append, List.cons_append, ngxRun]
      simp only [ngxStep, Bool.false_eq_true, if_false, if_true, Option.bind_some, ngxRun, hi, List.nil_append, List.append_assoc, List.cons_append, Option.map_map, Function.comp_def]

theorem bareQuotes_text {q : Char} (hq : q ≠ '\\') : ∀ us : List U, (∀ u ∈ us, u.wf) → bareQuotes q (textOf us) = quotedValue q us := by
  intro us
  induction us with
  | nil => intro _; rfl
  | cons u us ih =>
    intro hu
    have hi := ih fun u hu' => hu u (.tail _ hu')
    have h0 := hu u (.head _)
    cases u with
    | plain c =>
      have h1 : c ≠ '\\' := h0.1
      have e : textOf (.plain c :: us) = c :: textOf us := rfl
      have e2 : quotedValue q (.plain c :: us) = c :: quotedValue q us := rfl
      rw [e, e2, ← hi]
      cases textOf us with
      | nil => rfl
      | cons d l => rw [bareQuotes, if_neg h1]
    | esc c =>
      have e : textOf (.esc c :: us) = '\\' :: c :: textOf us := rfl
      rw [e, bareQuotes, if_pos rfl, hi]
      by_cases hc : c = q
      · subst hc
        simp [quotedValue]
      · simp [quotedValue, hc, U.text]

/-- A quoted string that is not closed. -/
theorem ngx_unclosed {q : Char} {d : Str} (hd : Dangling d) {args depth : Nat} : ∀ (us : List U) (raw : Str), (∀ u ∈ us, u.wf ∧ u ≠ .plain q) → q ≠ '\\' →
    ngxRun { pos := .quoted q, raw := raw, args := args, depth := depth } (textOf us ++ d) = none := by
  intro us
  induction us with
  | nil =>
    intro raw _ hq
    rcases hd with rfl | rfl
    · simp [textOf, ngxRun]
    · simp [textOf, ngxRun, ngxStep]
  | cons u us ih =>
    intro raw hu hq
    have hi := fun raw => ih raw (fun u hu' => hu u (.tail _ hu')) hq
    have h0 := hu u (.head _)
    cases u with
    | plain c =>
      have h1 : c ≠ '\\' := h0.1.1
      have h2 : c ≠ q := fun e => h0.2 (by rw [e])
      have e : textOf (.plain c :: us) = c :: textOf us := rfl
      rw [e, List.cons_append, ngxRun]
      simp only [ngxStep, Bool.false_eq_true, if_false, h1, h2, Option.bind_some, hi, Option.map_none]
    | esc c =>
      have e : textOf (.esc c :: us) = '\\' :: c :: textOf us := rfl
      rw [e, List.cons_append, List.cons_append, ngxRun]
      simp only [ngxStep, Bool.false_eq_true, if_false, if_true, Option.bind_some, ngxRun, hi, Option.map_none]

/-- A comment. -/
theorem ngx_comment {rest : Str} {args depth : Nat} : ∀ (us : List U), (∀ u ∈ us, u.wf ∧ u.char ≠ '\n') →
    ngxRun { pos := .comment, args := args, depth := depth } (textOf us ++ rest) = ngxRun { pos := .comment, args := args, depth := depth } rest := by
  intro us
  induction us with
  | nil => intro _; rfl
  | cons u us ih =>
    intro hu
    have hi := ih fun u hu' => hu u (.tail _ hu')
    have h0 := (hu u (.head _)).2
    cases u with
    | plain c =>
      have e : textOf (.plain c :: us) = c :: textOf us := rfl
      have h1 : c ≠ '\n' := h0
      rw [e, List.cons_append, ngxRun]
      simp only [ngxStep, h1, if_false, Option.bind_some, hi, List.nil_append, Option.map_id']
    | esc c =>
      have e : textOf (.esc c :: us) = '\\' :: c :: textOf us := rfl
      have h1 : c ≠ '\n' := h0
      have h2 : ('\\' : Char) ≠ '\n' := by decide
      rw [e, List.cons_append, List.cons_append, ngxRun]
      simp only [ngxStep, h1, h2, if_false, Option.bind_some, ngxRun, hi, List.nil_append, Option.map_id']

theorem ngx_run_append (p : WordPos) (a b : List U) : p.run (a ++ b) = (p.run a).bind fun p => p.run b := by
  induction a generalizing p with
  | nil => rfl
  | cons u a ih =>
    simp only [List.cons_append, WordPos.run]
    cases p.next u with
    | none => rfl
    | some p' => exact ih p'

theorem run_prefix {a b : Str} (h : a <+: b) (hb : ∃ x, WordPos.run (.out false) (b.map .plain) = some (.out x)) : ∃ p, WordPos.run (.out false) (a.map .plain) = some p := by
  obtain ⟨r, rfl⟩ := h
  obtain ⟨x, hx⟩ := hb
  rw [List.map_append, ngx_run_append] at hx
  cases h : WordPos.run (.out false) (a.map .plain) with
  | none => rw [h] at hx; cases hx
  | some p => exact ⟨p, rfl⟩

theorem next_out {x : Bool} {c : Char} {p : WordPos} (h : (WordPos.out x).next (.plain c) = some p) :
    isSpaceRune c = false ∧ ((c = '{' ∧ x = true ∧ p = .var) ∨ (isSpecialChar c = false ∧ p = .out (decide (c = '$')))) := by
  simp only [WordPos.next] at h
  by_cases g1 : isSpaceRune c = true
  · rw [if_pos g1] at h; cases h
  · rw [if_neg g1] at h
    refine ⟨by simpa using g1, ?_⟩
    by_cases g2 : c = '{' ∧ x = true
    · rw [if_pos g2] at h
      exact .inl ⟨g2.1, g2.2, (Option.some.inj h).symm⟩
    · rw [if_neg g2] at h
      by_cases g3 : isSpecialChar c = true
      · rw [if_pos g3] at h; cases h
      · rw [if_neg g3] at h
        exact .inr ⟨by simpa using g3, (Option.some.inj h).symm⟩

theorem next_var {c : Char} {b : Bool} (h : WordPos.var.next (.plain c) = some (.out b)) : b = false ∧ (c = '}' ∨ isSpaceRune c = true) := by
  simp only [WordPos.next] at h
  by_cases g1 : c = '}'
  · rw [if_pos (show (U.plain c).char = '}' from g1)] at h
    cases h
    exact ⟨rfl, .inl g1⟩
  · rw [if_neg (show ¬ (U.plain c).char = '}' from g1)] at h
    by_cases g2 : isSpaceRune c = true
    · rw [if_pos g2] at h
      cases h
      exact ⟨rfl, .inr g2⟩
    · rw [if_neg g2] at h
      cases h

/-- The characters of a word of the lexer: nginx reads the same word, if it is of the kind above. -/
theorem ngx_bare {d : Str} (hd : Dangling d) {rest : List Item} {args depth : Nat} {toks : List NgxTok} (hr : WF rest) : ∀ (us : List U) (raw : Str) (p : WordPos) (var : Bool), (∀ u ∈ us, u.wf) →
    raw ≠ [] → WordPos.run (.out false) (raw.map .plain) = some p → (∀ b, p = .out b → var = b) → (∃ p', p.run us = some p' ∧ wordEnd p' rest) →
    (∀ w, .word w none ∈ toks → Bare w) →
    ngxRun { pos := .word, raw := raw, var := var, args := args, depth := depth } (textOf us ++ (unlex rest ++ d)) = some toks →
    ∃ toks' i rest', rest = i :: rest' ∧ toks = .word (raw ++ textOf us) none :: toks' ∧ ((∃ c, i = .space c ∧ ngxBlank c = true) ∨ i = .special ';' ∨ i = .special '{') ∧
      ngxRun { pos := .need, args := args + 1, depth := depth } (unlex rest ++ d) = some toks' := by
  intro us
  induction us with
  | nil =>
    intro raw p var _ hne hrun hvar hend hb h
    obtain ⟨p', hp', hend⟩ := hend
    cases hp'
    have hw := ngx_word _ rfl h
    obtain ⟨v, toks', rfl, hv⟩ := hw
    have hbv := hb v (.head _)
    cases rest with
    | nil =>
      rcases hd with rfl | rfl
      · simp [textOf, unlex, ngxRun] at h
      · simp [textOf, unlex, ngxRun, ngxStep] at h
    | cons i rest =>
      cases p with
      | var => cases i <;> exact absurd hend (by simp [wordEnd])
      | out b =>
        have hvb := hvar b rfl
        subst hvb
        cases i with
        | word _ => exact absurd hend (by simp [wordEnd])
        | quoted _ _ _ => exact absurd hend (by simp [wordEnd])
        | comment _ _ => exact absurd hend (by simp [wordEnd])
        | space c =>
          have e : textOf [] ++ (unlex (.space c :: rest) ++ d) = c :: (unlex rest ++ d) := rfl
          rw [e] at h
          have hsp : isSpaceRune c = true := hr.1
          have c1 : ¬ (c = '{' ∧ var = true) := by rintro ⟨rfl, -⟩; revert hsp; decide
          have c2 : c ≠ '\\' := by rintro rfl; revert hsp; decide
          have c3 : c ≠ '$' := by rintro rfl; revert hsp; decide
          have c4 : ¬ (c = ';' ∨ c = '{') := by rintro (rfl | rfl) <;> revert hsp <;> decide
          by_cases hbl : ngxBlank c = true
          · rw [ngxRun] at h
            simp only [ngxStep, Bool.false_eq_true, if_false, c1, c2, c3, hbl, if_true, Option.bind_some] at h
            obtain ⟨r, h3, h4⟩ := Option.map_eq_some_iff.mp h
            obtain ⟨h5, rfl⟩ := List.cons.inj h4
            cases h5
            refine ⟨r, _, _, rfl, by simp [textOf], .inl ⟨c, rfl, hbl⟩, ?_⟩
            have e2 : unlex (.space c :: rest) ++ d = c :: (unlex rest ++ d) := rfl
            rw [e2, ngxRun]
            simp only [ngxStep, hbl, if_true, Option.bind_some, List.nil_append, Option.map_id']
            exact h3
          · rw [ngxRun] at h
            simp only [ngxStep, Bool.false_eq_true, if_false, c1, c2, c3, hbl, c4, Option.bind_some] at h
            obtain ⟨r, h3, h4⟩ := Option.map_eq_some_iff.mp h
            obtain ⟨v', t', e3, e4⟩ := ngx_word _ rfl h3
            rw [e3] at h4
            obtain ⟨h5, -⟩ := List.cons.inj h4
            cases h5
            have := hbv.2.1 c (e4.subset (by simp))
            rw [hsp] at this
            cases this
        | special c =>
          have e : textOf [] ++ (unlex (.special c :: rest) ++ d) = c :: (unlex rest ++ d) := rfl
          rw [e] at h
          have hnd : ¬ (c = '{' ∧ var = true) := hend
          have hsc : c = '{' ∨ c = '}' ∨ c = ';' := by simpa [isSpecialChar, or_assoc] using hr.1
          have e2 : unlex (.special c :: rest) ++ d = c :: (unlex rest ++ d) := rfl
          have fin : (c = ';' ∨ c = '{') → ngxRun { pos := .need, args := args + 1, depth := depth } (c :: (unlex rest ++ d)) = some toks' ∧ v = raw := by
            intro hc
            have c2 : c ≠ '\\' := by rcases hc with rfl | rfl <;> decide
            have c3 : c ≠ '$' := by rcases hc with rfl | rfl <;> decide
            have c4 : ngxBlank c = false := by rcases hc with rfl | rfl <;> decide
            rw [ngxRun] at h
            simp only [ngxStep, Bool.false_eq_true, if_false, hnd, c2, c3, c4, hc, if_true, ngxEnd, Option.map_some, Option.bind_some] at h
            obtain ⟨r, h3, h4⟩ := Option.map_eq_some_iff.mp h
            obtain ⟨h5, h6⟩ := List.cons.inj h4
            cases h5
            refine ⟨?_, rfl⟩
            rw [ngxRun]
            simp only [ngxStep, c4, Bool.false_eq_true, if_false, hc, if_true, ngxEnd, Option.bind_some, h3, Option.map_some]
            exact congrArg some h6
          rcases hsc with rfl | rfl | rfl
          · obtain ⟨f1, rfl⟩ := fin (.inr rfl)
            exact ⟨_, _, _, rfl, by simp [textOf], .inr (.inr rfl), f1⟩
          · rw [ngxRun] at h
            simp only [ngxStep, Bool.false_eq_true, if_false, ngxBlank] at h
            simp at h
            obtain ⟨v', t', e3, e4⟩ := ngx_word _ rfl h
            obtain ⟨h5, -⟩ := List.cons.inj e3
            cases h5
            obtain ⟨p, hp⟩ := run_prefix e4 hbv.2.2
            rw [List.map_append, ngx_run_append, hrun] at hp
            simp [WordPos.run, WordPos.next, isSpecialChar] at hp
          · obtain ⟨f1, rfl⟩ := fin (.inl rfl)
            exact ⟨_, _, _, rfl, by simp [textOf], .inr (.inl rfl), f1⟩
  | cons u us ih =>
    intro raw p var hu hne hrun hvar hend hb h
    obtain ⟨v, toks', hv0, hv⟩ := ngx_word _ rfl h
    have hbv := hb v (by rw [hv0]; exact .head _)
    obtain ⟨p', hp', hend⟩ := hend
    cases u with
    | esc c =>
      exfalso
      have e : textOf (.esc c :: us) ++ (unlex rest ++ d) = '\\' :: (c :: textOf us ++ (unlex rest ++ d)) := rfl
      rw [e, ngxRun] at h
      simp [ngxStep] at h
      obtain ⟨v', t', e3, e4⟩ := ngx_word _ rfl h
      rw [hv0] at e3
      obtain ⟨h5, -⟩ := List.cons.inj e3
      cases h5
      exact hbv.1 (e4.subset (by simp))
    | plain c =>
      have e : textOf (.plain c :: us) ++ (unlex rest ++ d) = c :: (textOf us ++ (unlex rest ++ d)) := rfl
      have h0 : c ≠ '\\' := (hu _ (.head _)).1
      rw [WordPos.run, Option.bind_eq_some_iff] at hp'
      obtain ⟨p1, hp1, hp'⟩ := hp'
      have hrun1 : WordPos.run (.out false) ((raw ++ [c]).map .plain) = some p1 := by
        rw [List.map_append, ngx_run_append, hrun]
        simp [WordPos.run, hp1]
      -- nginx takes the character into the word
      have go : ∀ var', (∀ b, p1 = .out b → var' = b) → ngxRun { pos := .word, raw := raw ++ [c], var := var', args := args, depth := depth } (textOf us ++ (unlex rest ++ d)) = some toks →
          ∃ toks' i rest', rest = i :: rest' ∧ toks = .word (raw ++ textOf (.plain c :: us)) none :: toks' ∧
            ((∃ c, i = .space c ∧ ngxBlank c = true) ∨ i = .special ';' ∨ i = .special '{') ∧
            ngxRun { pos := .need, args := args + 1, depth := depth } (unlex rest ++ d) = some toks' := by
        intro var' hvar' hgo
        obtain ⟨t, i, r, a1, a2, a3, a4⟩ := ih (raw ++ [c]) p1 var' (fun u hu' => hu u (.tail _ hu')) (by simp) hrun1 hvar' ⟨p', hp', hend⟩ hb hgo
        refine ⟨t, i, r, a1, ?_, a3, a4⟩
        rw [a2]
        simp [textOf, U.text]
      -- the word cannot end here
      have stop : v = raw → p = .var → False := by
        rintro rfl rfl
        obtain ⟨b, hbr⟩ := hbv.2.2
        rw [hrun] at hbr
        cases hbr
      rw [e, ngxRun] at h
      have hnext : ∀ b, p1 = .out b → b = decide (c = '$') := by
        rintro b rfl
        cases p with
        | out x =>
          rcases next_out hp1 with ⟨-, ⟨-, -, g⟩ | ⟨-, g⟩⟩
          · cases g
          · exact WordPos.out.inj g
        | var =>
          obtain ⟨rfl, g⟩ := next_var hp1
          have : c ≠ '$' := by
            rintro rfl
            rcases g with g | g
            · revert g; decide
            · revert g; decide
          simp [this]
      by_cases c1 : c = '{' ∧ var = true
      · simp only [ngxStep, Bool.false_eq_true, if_false, c1, and_self, if_true, Option.bind_some, List.nil_append, Option.map_id'] at h
        refine go true (fun b hb => ?_) (by rw [c1.1]; simpa using h)
        subst hb
        exfalso
        obtain ⟨rfl, rfl⟩ := c1
        cases p with
        | out x =>
          obtain rfl := hvar x rfl
          revert hp1
          simp [WordPos.next, show isSpaceRune '{' = false by decide]
        | var =>
          revert hp1
          simp [WordPos.next, U.char, show isSpaceRune '{' = false by decide]
      · by_cases c3 : c = '$'
        · subst c3
          simp only [ngxStep, Bool.false_eq_true, if_false, c1, h0, if_true, Option.bind_some, List.nil_append, Option.map_id'] at h
          exact go true (fun b hb => by simpa using (hnext b hb).symm) h
        · have ends : (ngxBlank c = true ∨ c = ';' ∨ c = '{') → v = raw → False := by
            intro hc hvr
            cases p with
            | var => exact stop hvr rfl
            | out x =>
              obtain rfl := hvar x rfl
              have : isSpaceRune c = true ∨ c = ';' ∨ c = '{' := by
                rcases hc with hc | hc
                · left
                  simp only [ngxBlank, Bool.or_eq_true, decide_eq_true_eq] at hc
                  rcases hc with ((rfl | rfl) | rfl) | rfl <;> decide
                · exact .inr hc
              obtain ⟨g1, g⟩ := next_out hp1
              rcases g with ⟨g2, g3, -⟩ | ⟨g2, -⟩
              · exact c1 ⟨g2, g3⟩
              · rcases this with t | rfl | rfl
                · rw [g1] at t; cases t
                · revert g2; decide
                · revert g2; decide
          by_cases hbl : ngxBlank c = true
          · simp only [ngxStep, Bool.false_eq_true, if_false, c1, h0, c3, hbl, if_true, Option.bind_some] at h
            obtain ⟨r, h3, h4⟩ := Option.map_eq_some_iff.mp h
            rw [hv0] at h4
            obtain ⟨h5, -⟩ := List.cons.inj h4
            cases h5
            exact absurd rfl (ends (.inl hbl))
          · by_cases hc : c = ';' ∨ c = '{'
            · simp only [ngxStep, Bool.false_eq_true, if_false, c1, h0, c3, hbl, hc, if_true, ngxEnd, Option.map_some, Option.bind_some] at h
              obtain ⟨r, h3, h4⟩ := Option.map_eq_some_iff.mp h
              rw [hv0] at h4
              obtain ⟨h5, -⟩ := List.cons.inj h4
              cases h5
              exact absurd rfl (ends (.inr hc))
            · simp only [ngxStep, Bool.false_eq_true, if_false, c1, h0, c3, hbl, hc, Option.bind_some, List.nil_append, Option.map_id'] at h
              exact go false (fun b hb => by rw [hnext b hb]; simp [c3]) h

/-- The items of a text: what nginx reads is what the lexer reads. -/
theorem ngx_items {d : Str} (hd : Dangling d) : ∀ (items : List Item) (need : Bool) (args depth : Nat) (toks : List NgxTok) (line start : Int) (dup glued : Bool), WF items →
    ngxRun { pos := if need then .need else .blank, args := args, depth := depth } (unlex items ++ d) = some toks → (∀ w, .word w none ∈ toks → Bare w) →
    (dup = true → args = 0 ∧ need = false) →
    shownToks (specToks line start depth dup glued items) = toks.map NgxTok.shown ∧ ∀ t ∈ specToks line start depth dup glued items, t.error = none := by
  intro items
  induction items with
  | nil =>
    intro need args depth toks line start dup glued _ h _ _
    rcases hd with rfl | rfl
    · cases need with
      | true => simp [unlex, ngxRun] at h
      | false =>
        simp [unlex, ngxRun] at h
        obtain ⟨⟨rfl, rfl⟩, rfl⟩ := h
        exact ⟨rfl, fun t ht => by cases ht⟩
    · cases need <;> simp [unlex, ngxRun, ngxStep, ngxStart, ngxBlank] at h
  | cons i rest ih =>
    intro need args depth toks line start dup glued hw h hb hdup
    cases i with
    | space c =>
      have e : unlex (.space c :: rest) ++ d = c :: (unlex rest ++ d) := rfl
      rw [e, ngxRun] at h
      by_cases hbl : ngxBlank c = true
      · have : ngxRun { pos := if false then .need else .blank, args := args, depth := depth } (unlex rest ++ d) = some toks := by
          cases need <;> simpa [ngxStep, ngxStart, hbl] using h
        exact ih false args depth toks _ start dup false hw.2.2 this hb fun hx => ⟨(hdup hx).1, rfl⟩
      · exfalso
        have hsp : isSpaceRune c = true := hw.1
        have c1 : ¬ (c = ';' ∨ c = '{') := by rintro (rfl | rfl) <;> revert hsp <;> decide
        have c2 : c ≠ '}' := by rintro rfl; revert hsp; decide
        have c3 : c ≠ '#' := by rintro rfl; revert hsp; decide
        have c4 : c ≠ '\\' := by rintro rfl; revert hsp; decide
        have c5 : ¬ (c = '"' ∨ c = '\'') := by rintro (rfl | rfl) <;> revert hsp <;> decide
        have c6 : c ≠ ')' := by rintro rfl; revert hsp; decide
        cases need with
        | true => simp [ngxStep, hbl, c1, c6] at h
        | false =>
          simp only [ngxStep, ngxStart, Bool.false_eq_true, if_false, hbl, c1, c2, c3, c4, c5, Option.bind_some, List.nil_append, Option.map_id'] at h
          obtain ⟨v, t, rfl, hv⟩ := ngx_word _ rfl h
          have := (hb v (.head _)).2.1 c (hv.subset (by simp))
          rw [hsp] at this
          cases this
    | special c =>
      have e : unlex (.special c :: rest) ++ d = c :: (unlex rest ++ d) := rfl
      rw [e, ngxRun] at h
      have hsc : c = '{' ∨ c = '}' ∨ c = ';' := by simpa [isSpecialChar, or_assoc] using hw.1
      have hcm : ∀ (l : Int) , commentTok ⟨[c], l, false, none⟩ = false := by
        intro l
        rcases hsc with rfl | rfl | rfl <;> rfl
      have fin : ∀ depth', (c = '}' → depth ≠ 0) → (dup = true → c = '}') → depth' = (if c = '{' then depth + 1 else if c = '}' then depth - 1 else depth) →
          (∃ toks', toks = .special c :: toks' ∧ ngxRun { depth := depth' } (unlex rest ++ d) = some toks') →
          shownToks (specToks line start depth dup glued (.special c :: rest)) = toks.map NgxTok.shown ∧ ∀ t ∈ specToks line start depth dup glued (.special c :: rest), t.error = none := by
        rintro depth' h1 h2 rfl ⟨toks', rfl, h3⟩
        have g1 : ¬ (dup = true ∧ c ≠ '}') := fun g => g.2 (h2 g.1)
        have g2 : ¬ (c = '}' ∧ depth = 0) := fun g => h1 g.1 g.2
        obtain ⟨a1, a2⟩ := ih false 0 _ toks' line (if glued = true then start else line) true false hw.2 h3 (fun w hx => hb w (.tail _ hx)) fun _ => ⟨rfl, rfl⟩
        rw [specToks]
        simp only [g1, g2, if_false]
        refine ⟨?_, ?_⟩
        · rw [shownToks, List.filter_cons, hcm]
          simp only [Bool.not_false, if_true, List.map_cons]
          exact congrArg₂ _ rfl a1
        · intro t ht
          rcases List.mem_cons.mp ht with rfl | ht
          · rfl
          · exact a2 t ht
      have notdup : args ≠ 0 ∨ need = true → dup = true → c = '}' := by
        intro g hx
        obtain ⟨x1, x2⟩ := hdup hx
        rcases g with g | g
        · exact absurd x1 g
        · rw [x2] at g; cases g
      by_cases hc : c = ';' ∨ c = '{'
      · have hnb : ngxBlank c = false := by rcases hc with rfl | rfl <;> decide
        have hn : c ≠ '}' := by rcases hc with rfl | rfl <;> decide
        have hd' : (if c = '{' then depth + 1 else depth) = (if c = '{' then depth + 1 else if c = '}' then depth - 1 else depth) := by rw [if_neg hn]
        cases need with
        | true =>
          simp only [ngxStep, if_true, hnb, Bool.false_eq_true, if_false, hc, ngxEnd, Option.bind_some] at h
          obtain ⟨r, h3, rfl⟩ := Option.map_eq_some_iff.mp h
          exact fin _ (fun x => absurd x hn) (notdup (.inr rfl)) hd' ⟨r, rfl, h3⟩
        | false =>
          by_cases ha : args = 0
          · simp [ngxStep, ngxStart, hnb, hc, ha] at h
          · simp only [ngxStep, ngxStart, hnb, Bool.false_eq_true, if_false, hc, if_true, ha, ngxEnd, Option.bind_some] at h
            obtain ⟨r, h3, rfl⟩ := Option.map_eq_some_iff.mp h
            exact fin _ (fun x => absurd x hn) (notdup (.inl ha)) hd' ⟨r, rfl, h3⟩
      · have : c = '}' := by
          rcases hsc with rfl | rfl | rfl
          · exact absurd (.inr rfl) hc
          · rfl
          · exact absurd (.inl rfl) hc
        subst this
        cases need with
        | true => simp [ngxStep, ngxBlank] at h
        | false =>
          by_cases ha : args ≠ 0 ∨ depth = 0
          · simp only [ngxStep, ngxStart, Bool.false_eq_true, if_false, hc, show ngxBlank '}' = false by decide, if_true, ha, Option.bind_none] at h
            cases h
          · simp only [ngxStep, ngxStart, Bool.false_eq_true, if_false, hc, show ngxBlank '}' = false by decide, if_true, ha, Option.bind_some] at h
            obtain ⟨r, h3, rfl⟩ := Option.map_eq_some_iff.mp h
            exact fin _ (fun _ x => ha (.inr x)) (fun _ => rfl) rfl ⟨r, rfl, h3⟩
    | word us =>
      obtain ⟨w1, ⟨u, us', rfl, w2⟩, ⟨p, w3, w4⟩, w5⟩ := hw
      have e : unlex (.word (u :: us') :: rest) ++ d = u.text ++ (textOf us' ++ (unlex rest ++ d)) := by simp [unlex, Item.text, textOf]
      rw [e] at h
      -- nginx begins a word
      have begun : ∃ c, u = .plain c ∧ ngxRun { pos := .word, raw := [c], var := c = '$', args := args, depth := depth } (textOf us' ++ (unlex rest ++ d)) = some toks := by
        cases u with
        | esc c =>
          exfalso
          cases need with
          | true => simp [U.text, ngxRun, ngxStep, ngxBlank] at h
          | false =>
            simp [U.text, ngxRun, ngxStep, ngxStart, ngxBlank] at h
            obtain ⟨v, t, rfl, hv⟩ := ngx_word _ rfl h
            exact (hb v (.head _)).1 (hv.subset (by simp))
        | plain c =>
          refine ⟨c, rfl, ?_⟩
          obtain ⟨s1, s2, s3, s4, s5⟩ := w2
          have hwf : c ≠ '\\' := (w1 _ (.head _)).1
          have hbl : ngxBlank c = false := by
            rw [Bool.eq_false_iff]
            intro hx
            apply s1
            simp only [ngxBlank, Bool.or_eq_true, decide_eq_true_eq] at hx
            rcases hx with ((rfl | rfl) | rfl) | rfl <;> decide
          have t1 : ¬ (c = ';' ∨ c = '{') := by rintro (rfl | rfl) <;> exact s2 (by decide)
          have t2 : c ≠ '}' := by rintro rfl; exact s2 (by decide)
          have t3 : ¬ (c = '"' ∨ c = '\'') := by rintro (rfl | rfl) <;> contradiction
          cases need with
          | true =>
            by_cases hp : c = ')'
            · simp only [U.text, List.cons_append, List.nil_append, ngxRun, ngxStep, ngxStart, if_true, hbl, Bool.false_eq_true, if_false, t1, t2, s5, hwf, t3, hp, Option.bind_some, Option.map_id'] at h
              subst hp
              simpa [ngxBlank] using h
            · simp [U.text, ngxRun, ngxStep, hbl, t1, hp] at h
          | false =>
            simpa only [U.text, List.cons_append, List.nil_append, ngxRun, ngxStep, ngxStart, hbl, Bool.false_eq_true, if_false, t1, t2, s5, hwf, t3, Option.bind_some, Option.map_id'] using h
      obtain ⟨c, rfl, h1⟩ := begun
      rw [WordPos.run, Option.bind_eq_some_iff] at w3
      obtain ⟨p1, w3, w6⟩ := w3
      have hp1 : ∀ b, p1 = .out b → decide (c = '$') = b := by
        rintro b rfl
        rcases next_out w3 with ⟨-, ⟨-, -, g⟩ | ⟨-, g⟩⟩
        · cases g
        · exact (WordPos.out.inj g).symm
      obtain ⟨toks', i, rest', rfl, rfl, a3, a4⟩ := ngx_bare hd w5 us' [c] p1 _ (fun u hu => w1 u (.tail _ hu)) (by simp) (by simp [WordPos.run, w3]) hp1 ⟨p, w6, w4⟩ hb h1
      obtain ⟨b1, b2⟩ := ih true (args + 1) depth toks' (line + nls (textOf (.plain c :: us'))) (wordLine line (.plain c :: us')) false true w5 a4 (fun w hx => hb w (.tail _ hx)) (fun x => by cases x)
      rw [specToks]
      refine ⟨?_, ?_⟩
      · have hcm : commentTok ⟨textOf (.plain c :: us'), wordLine line (.plain c :: us'), false, none⟩ = false := by
          have : c ≠ '#' := w2.2.2.2.2
          simp [commentTok, textOf, U.text, this]
        rw [shownToks, List.filter_cons, hcm]
        simp only [Bool.not_false, if_true, List.map_cons]
        exact congrArg₂ _ rfl b1
      · intro t ht
        rcases List.mem_cons.mp ht with rfl | ht
        · rfl
        · exact b2 t ht
    | quoted q us closed =>
      obtain ⟨w1, w2, w3, w4⟩ := hw
      have hq : q ≠ '\\' := by rcases w1 with rfl | rfl <;> decide
      have e : unlex (.quoted q us closed :: rest) ++ d = q :: (textOf us ++ ((if closed then [q] else []) ++ (unlex rest ++ d))) := by simp [unlex, Item.text]
      rw [e, ngxRun] at h
      cases need with
      | true => rcases w1 with rfl | rfl <;> simp [ngxStep, ngxBlank] at h
      | false =>
        have h1 : ngxRun { pos := .quoted q, args := args, depth := depth } (textOf us ++ ((if closed then [q] else []) ++ (unlex rest ++ d))) = some toks := by
          rcases w1 with rfl | rfl <;> simpa [ngxStep, ngxStart, ngxBlank] using h
        cases closed with
        | false =>
          obtain rfl := w3 rfl
          have := ngx_unclosed hd (args := args) (depth := depth) us [] w2 hq
          simp only [Bool.false_eq_true, if_false, unlex, List.flatMap_nil, List.nil_append] at h1
          rw [this] at h1
          cases h1
        | true =>
          simp only [if_true, List.cons_append, List.nil_append] at h1
          rw [ngx_quoted hq us [] w2] at h1
          obtain ⟨r, h3, rfl⟩ := Option.map_eq_some_iff.mp h1
          obtain ⟨b1, b2⟩ := ih true (args + 1) depth r (line + nls (textOf us)) line false false w4 h3 (fun w hx => hb w (.tail _ hx)) (fun x => by cases x)
          rw [specToks]
          simp only [true_or, if_true, List.cons_append, List.nil_append]
          refine ⟨?_, ?_⟩
          · rw [shownToks, List.filter_cons]
            simp only [commentTok, Bool.not_true, Bool.false_and, Bool.not_false, if_true, List.map_cons, NgxTok.shown, bareQuotes_text hq us fun u hu => (w2 u hu).1]
            exact congrArg₂ _ rfl b1
          · intro t ht
            rcases List.mem_cons.mp ht with rfl | ht
            · rfl
            · exact b2 t ht
    | comment us ce =>
      obtain ⟨w1, w2, w3⟩ := hw
      have e : unlex (.comment us ce :: rest) ++ d = '#' :: (textOf us ++ (ce.text ++ (unlex rest ++ d))) := by simp [unlex, Item.text]
      rw [e, ngxRun] at h
      cases need with
      | true => simp [ngxStep, ngxBlank] at h
      | false =>
        have h1 : ngxRun { pos := .comment, args := args, depth := depth } (textOf us ++ (ce.text ++ (unlex rest ++ d))) = some toks := by simpa [ngxStep, ngxStart, ngxBlank] using h
        rw [ngx_comment us w1] at h1
        have key : ngxRun { pos := if false then .need else .blank, args := args, depth := depth } (unlex rest ++ d) = some toks ∨ (rest = [] ∧ toks = [] ∧ depth = 0) := by
          cases ce with
          | nl => left; simpa [CommentEnd.text, ngxRun, ngxStep] using h1
          | escNl => left; simpa [CommentEnd.text, ngxRun, ngxStep] using h1
          | eof =>
            obtain rfl := w2 rfl
            right
            rcases hd with rfl | rfl
            · simp [CommentEnd.text, unlex, ngxRun] at h1
              exact ⟨rfl, h1.2, h1.1.2⟩
            · simp [CommentEnd.text, unlex, ngxRun, ngxStep] at h1
              exact ⟨rfl, h1.2, h1.1.2⟩
        have hcm : commentTok ⟨'#' :: textOf us, line, false, none⟩ = true := rfl
        rw [specToks]
        have both : shownToks (specToks (line + nls ce.text) line depth dup false rest) = toks.map NgxTok.shown ∧ ∀ t ∈ specToks (line + nls ce.text) line depth dup false rest, t.error = none := by
          rcases key with key | ⟨rfl, rfl, rfl⟩
          · exact ih false args depth toks _ line dup false w3 key hb fun x => ⟨(hdup x).1, rfl⟩
          · exact ⟨rfl, fun t ht => by cases ht⟩
        refine ⟨?_, ?_⟩
        · rw [shownToks, List.filter_cons, hcm]
          exact both.1
        · intro t ht
          rcases List.mem_cons.mp ht with rfl | ht
          · rfl
          · exact both.2 t ht

/-! ## Carriage returns -/

/-- A quoted string that was begun becomes a parameter. -/
theorem ngx_string {q : Char} : ∀ (s : Str) {st : NgxSt} {toks : List NgxTok}, st.pos = .quoted q → ngxRun st s = some toks → ∃ v toks', toks = .word v (some q) :: toks' ∧ st.raw <+: v := by
  intro s
  induction s with
  | nil => intro st toks hp h; simp [ngxRun, hp] at h
  | cons c cs ih =>
    intro st toks hp h
    rw [ngxRun, Option.bind_eq_some_iff] at h
    obtain ⟨⟨o, st'⟩, h1, h2⟩ := h
    obtain ⟨r, h3, rfl⟩ := Option.map_eq_some_iff.mp h2
    have more : o = [] → st'.pos = .quoted q → st'.raw = st.raw ++ [c] → ∃ v toks', o ++ r = .word v (some q) :: toks' ∧ st.raw <+: v := by
      rintro rfl e1 e2
      obtain ⟨v, t, e3, e4⟩ := ih e1 h3
      exact ⟨v, t, e3, (List.prefix_append _ _).trans (e2 ▸ e4)⟩
    simp only [ngxStep, hp] at h1
    split_ifs at h1
    all_goals first
      | (cases h1; exact more rfl hp rfl)
      | (cases h1; exact more rfl rfl rfl)
      | (cases h1; exact ⟨_, _, rfl, List.prefix_rfl⟩)

/-- Every carriage return stands before a line feed. -/
def LineEnds (s : Str) : Prop := ∀ a b, s = a ++ '\r' :: b → b.head? = some '\n'

theorem LineEnds.tail {c : Char} {s : Str} (h : LineEnds (c :: s)) : LineEnds s := fun a b e => h (c :: a) b (by rw [e]; rfl)

theorem ngx_quote {st st' : NgxSt} {c : Char} {o : List NgxTok} (h : ngxStep st c = some (o, st')) (hq : st.pos ≠ .quoted '\r') : st'.pos ≠ .quoted '\r' := by
  obtain ⟨pos, raw, esc, var, args, depth⟩ := st
  have start : ∀ st : NgxSt, ngxStart st c = some (o, st') → st'.pos ≠ .quoted '\r' := by
    intro st h
    simp only [ngxStart, ngxEnd] at h
    split_ifs at h with g1 g2 g3 g4 g5 g6 g7 g8 g9
    all_goals first
      | (cases h; simp; done)
      | (cases h; intro e; cases e; revert g8; decide)
      | (cases h; intro e; cases e; revert g9; decide)
      | skip
  cases pos with
  | blank => exact start _ h
  | comment =>
    simp only [ngxStep] at h
    cases h
    split_ifs <;> simp
  | need =>
    simp only [ngxStep, ngxEnd] at h
    split_ifs at h
    all_goals first
      | exact start _ h
      | (cases h; simp; done)
  | word =>
    simp only [ngxStep, ngxEnd, Option.map_some] at h
    split_ifs at h
    all_goals (cases h; simp)
  | quoted q =>
    simp only [ngxStep] at h
    split_ifs at h
    all_goals first
      | (cases h; exact hq)
      | (cases h; simp)

/-- Carriage returns before line feeds mean nothing to nginx, if they do not stand in a parameter. -/
theorem ngx_returns : ∀ (s : Str) (st : NgxSt) (toks : List NgxTok), st.pos ≠ .quoted '\r' → LineEnds s → ngxRun st s = some toks → (∀ w q, .word w q ∈ toks → '\r' ∉ w) →
    ngxRun st (s.filter (· ≠ '\r')) = some toks := by
  intro s
  induction s with
  | nil => intro st toks _ _ h _; exact h
  | cons c cs ih =>
    intro st toks hp hl h hr
    rw [ngxRun, Option.bind_eq_some_iff] at h
    obtain ⟨⟨o, st'⟩, h1, h2⟩ := h
    obtain ⟨r, h3, h4⟩ := Option.map_eq_some_iff.mp h2
    have hi := ih st' r (ngx_quote h1 hp) hl.tail h3 fun w q hx => hr w q (by rw [← h4]; exact List.mem_append_right _ hx)
    by_cases hc : c = '\r'
    · subst hc
      have hn := hl [] cs rfl
      cases cs with
      | nil => cases hn
      | cons x cs =>
        cases hn
        have f1 : ('\r' :: '\n' :: cs).filter (· ≠ '\r') = '\n' :: cs.filter (· ≠ '\r') := by simp
        have f2 : ('\n' :: cs).filter (· ≠ '\r') = '\n' :: cs.filter (· ≠ '\r') := by simp
        rw [f2] at hi
        rw [f1, ← h4]
        have same : (∃ st2, ngxStep st' '\n' = some ([], st2) ∧ ngxStep st '\n' = some (o, st2)) → ngxRun st ('\n' :: cs.filter (· ≠ '\r')) = some (o ++ r) := by
          rintro ⟨st2, e1, e2⟩
          rw [ngxRun, e1] at hi
          rw [ngxRun, e2]
          simp only [Option.bind_some, List.nil_append, Option.map_id'] at hi ⊢
          rw [hi]
          rfl
        refine same ?_
        obtain ⟨pos, raw, esc, var, args, depth⟩ := st
        cases pos with
        | blank =>
          simp [ngxStep, ngxStart, ngxBlank] at h1
          obtain ⟨rfl, rfl⟩ := h1
          exact ⟨_, rfl, rfl⟩
        | need =>
          simp [ngxStep, ngxBlank] at h1
          obtain ⟨rfl, rfl⟩ := h1
          exact ⟨_, rfl, rfl⟩
        | comment =>
          simp [ngxStep] at h1
          obtain ⟨rfl, rfl⟩ := h1
          exact ⟨_, rfl, rfl⟩
        | word =>
          cases esc with
          | true =>
            simp [ngxStep] at h1
            obtain ⟨rfl, rfl⟩ := h1
            obtain ⟨v, t, rfl, hv⟩ := ngx_word _ rfl h3
            exact absurd (hv.subset (by simp)) (hr v none (by rw [← h4]; exact .head _))
          | false =>
            simp [ngxStep, ngxBlank] at h1
            obtain ⟨rfl, rfl⟩ := h1
            exact ⟨_, rfl, by simp [ngxStep, ngxBlank]⟩
        | quoted q =>
          exfalso
          cases esc with
          | true =>
            simp [ngxStep] at h1
            obtain ⟨rfl, rfl⟩ := h1
            obtain ⟨v, t, rfl, hv⟩ := ngx_string _ rfl h3
            exact absurd (hv.subset (by simp)) (hr v (some q) (by rw [← h4]; exact .head _))
          | false =>
            have hq : '\r' ≠ q := by rintro rfl; exact hp rfl
            simp [ngxStep, hq] at h1
            obtain ⟨rfl, rfl⟩ := h1
            obtain ⟨v, t, rfl, hv⟩ := ngx_string _ rfl h3
            exact absurd (hv.subset (by simp)) (hr v (some q) (by rw [← h4]; exact .head _))
    · rw [List.filter_cons_of_pos (by simpa using hc), ngxRun, h1]
      simp only [Option.bind_some, hi, Option.map_some, h4]

/-! ## C99 -/

/-- C99.  What nginx reads, the lexer reads too: the same parameters and special characters in the same order, without an error. -/
theorem C99_same {s : Str} {toks : List NgxTok} (h : ngxRead s = some toks) (hl : LineEnds s) (hr : ∀ w q, .word w q ∈ toks → '\r' ∉ w) (hb : ∀ w, .word w none ∈ toks → Bare w) :
    shownToks (lex s) = toks.map NgxTok.shown ∧ ∀ t ∈ lex s, t.error = none := by
  obtain ⟨items, d, e, hw, hd, hlex⟩ := C03_every_text_is_items s
  have h1 := ngx_returns s {} toks (by simp) hl h hr
  rw [e] at h1
  rw [hlex]
  exact ngx_items hd items false 0 0 toks 1 1 false false hw h1 hb (fun x => by cases x)

theorem ngxValue_id : ∀ w : Str, '\\' ∉ w → ngxValue w = w
  | [], _ => rfl
  | [_], _ => rfl
  | c :: d :: rest, h => by
    rw [ngxValue, if_neg (fun e => h (by rw [e]; exact .head _)), ngxValue_id (d :: rest) fun hx => h (.tail _ hx)]

theorem bareQuotes_id (q : Char) : ∀ w : Str, '\\' ∉ w → bareQuotes q w = w
  | [], _ => rfl
  | [_], _ => rfl
  | c :: d :: rest, h => by
    rw [bareQuotes, if_neg (fun e => h (by rw [e]; exact .head _)), bareQuotes_id q (d :: rest) fun hx => h (.tail _ hx)]

/-- The values nginx uses. -/
def NgxTok.value : NgxTok → Str
  | .word raw _ => ngxValue raw
  | .special c => [c]

/-- C99.  Without backslashes in the parameters the values are those nginx uses. -/
theorem C99_values {s : Str} {toks : List NgxTok} (h : ngxRead s = some toks) (hl : LineEnds s) (hr : ∀ w q, .word w q ∈ toks → '\r' ∉ w ∧ '\\' ∉ w) (hb : ∀ w, .word w none ∈ toks → Bare w) :
    ((lex s).filter fun t => !commentTok t).map (·.value) = toks.map NgxTok.value := by
  have h1 := congrArg (List.map Prod.fst) (C99_same h hl (fun w q hx => (hr w q hx).1) hb).1
  rw [shownToks, List.map_map, List.map_map] at h1
  refine Eq.trans h1 (List.map_congr_left fun t ht => ?_)
  match t, ht with
  | .special c, _ => rfl
  | .word w none, ht => exact (ngxValue_id w (hr w _ ht).2).symm
  | .word w (some q), ht => exact (bareQuotes_id q w (hr w _ ht).2).trans (ngxValue_id w (hr w _ ht).2).symm

/-- Two lines with `\r\n`, a comment, quotes, a variable and a block. -/
example : let s := c!"http{# x\r\n  root  \"/r;\\\" \" ${a}b'c 'd';\r\n}"
    shownToks (lex s) = [(c!"http", false), (c!"{", false), (c!"root", false), (c!"/r;\" ", true), (c!"${a}b'c", false), (c!"d", true), (c!";", false), (c!"}", false)] ∧
      ∀ t ∈ lex s, t.error = none := by
  intro s
  have h : ngxRead s = some [.word c!"http" none, .special '{', .word c!"root" none, .word c!"/r;\\\" " (some '"'), .word c!"${a}b'c" none, .word c!"d" (some '\''), .special ';', .special '}'] := by
    decide +kernel
  refine C99_same h ?_ ?_ ?_
  · intro a b e
    have key : ∀ n, n < s.length → s[n]? = some '\r' → s[n + 1]? = some '\n' := by decide +kernel
    have h1 := key a.length (by rw [e]; simp) (by rw [e]; simp)
    rw [e, List.getElem?_append_right (by omega)] at h1
    simpa [List.head?_eq_getElem?] using h1
  · intro w q hx
    simp only [List.mem_cons, NgxTok.word.injEq, reduceCtorEq, List.not_mem_nil, or_false, false_or] at hx
    rcases hx with ⟨rfl, -⟩ | ⟨rfl, -⟩ | ⟨rfl, -⟩ | ⟨rfl, -⟩ | ⟨rfl, -⟩ <;> decide
  · intro w hx
    simp only [List.mem_cons, NgxTok.word.injEq, reduceCtorEq, List.not_mem_nil, or_false, false_or, and_true, and_false] at hx
    rcases hx with rfl | rfl | rfl <;> decide +kernel

/-! ## What goes wrong without the conditions -/

/-- C99 is false of the code for a closing brace in a word: nginx reads `a b};` as one directive with the argument `b}`. -/
theorem C99_false_brace : ngxRead c!"a b};" = some [.word c!"a" none, .word c!"b}" none, .special ';'] ∧ ∃ t ∈ lex c!"a b};", t.error ≠ none := by decide +kernel

/-- C99 is false of the code for blanks other than ASCII ones: nginx reads one argument, the lexer two. -/
theorem C99_false_space : ngxRead c!"a b\u00a0c;" = some [.word c!"a" none, .word c!"b\u00a0c" none, .special ';'] ∧
    shownToks (lex c!"a b\u00a0c;") = [(c!"a", false), (c!"b", false), (c!"c", false), (c!";", false)] := by decide +kernel

/-- C99 is false of the code for blanks after `${`: nginx reads two arguments, the lexer one. -/
theorem C99_false_variable : ngxRead c!"a ${b c};" = some [.word c!"a" none, .word c!"${b" none, .word c!"c}" none, .special ';'] ∧
    shownToks (lex c!"a ${b c};") ≠ [(c!"a", false), (c!"${b", false), (c!"c}", false), (c!";", false)] := by decide +kernel

/-- C99 is false of the code for an escaped `$` before a block: nginx begins a block, the lexer does not. -/
theorem C99_false_dollar : ngxRead c!"a b\\${c;}" = some [.word c!"a" none, .word c!"b\\$" none, .special '{', .word c!"c" none, .special ';', .special '}'] ∧
    ∃ t ∈ lex c!"a b\\${c;}", t.value = c!"b\\${c;}" := by decide +kernel

/-- C99 is false of the code for a carriage return in a line: nginx reads two arguments, the lexer one. -/
theorem C99_false_return : ngxRead c!"a b\rc;" = some [.word c!"a" none, .word c!"b" none, .word c!"c" none, .special ';'] ∧
    shownToks (lex c!"a b\rc;") = [(c!"a", false), (c!"bc", false), (c!";", false)] := by decide +kernel

/-- C99 is false of the code for values with backslashes: nginx drops one of two backslashes, and `\t` is a tab. -/
theorem C99_false_backslash : (ngxRead c!"a \"b\\\\c\\t\";").map (·.map NgxTok.value) = some [c!"a", c!"b\\c\t", c!";"] ∧
    shownToks (lex c!"a \"b\\\\c\\t\";") = [(c!"a", false), (c!"b\\\\c\\t", true), (c!";", false)] := by decide +kernel

/-- The lexer accepts more than nginx: text right after a closing quote. -/
theorem C99_more : ngxRead c!"a \"b\"c;" = none ∧ shownToks (lex c!"a \"b\"c;") = [(c!"a", false), (c!"b", true), (c!"c", false), (c!";", false)] ∧
    ∀ t ∈ lex c!"a \"b\"c;", t.error = none := by decide +kernel

end Verif
