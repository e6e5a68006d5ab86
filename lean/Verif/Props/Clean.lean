import Verif.Props.Include
import Verif.Props.Lexer
import Verif.Proofs.Analyze
/-!
# C31: lexer errors and unfinished statements
-/
namespace Verif
open Spec

/-- The number of opening braces minus that of closing ones. -/
def net : List Tok → Int
  | [] => 0
  | t :: ts => (if t.is c!"{" then 1 else if t.is c!"}" then -1 else 0) + net ts

theorem net_append (a b : List Tok) : net (a ++ b) = net a + net b := by
  induction a with
  | nil => simp [net]
  | cons t ts ih => simp only [List.cons_append, net, ih]; omega

/-- The stream does not end in the middle of a statement: its last token other than comments is one that ends a statement. -/
def EndsStatement (toks : List Tok) : Prop := ∀ t, (toks.filter (!·.isCommentTok)).getLast? = some t → t.isTerm = true

/-! ## The lexer -/

theorem word_head {us : List U} (hu : ∃ u us', us = u :: us' ∧ startsWord u) :
    ∃ c r, textOf us = c :: r ∧ isSpecialChar c = false ∧ c ≠ '#' := by
  obtain ⟨u, us', rfl, hs⟩ := hu
  cases u with
  | plain c' => exact ⟨c', textOf us', by simp [textOf_cons, U.text], by simpa using hs.2.1, hs.2.2.2.2⟩
  | esc c' => exact ⟨'\\', c' :: textOf us', by simp [textOf_cons, U.text], by decide, by decide⟩

theorem word_tok {us : List U} (hu : ∃ u us', us = u :: us' ∧ startsWord u) (line : Int) :
    (⟨textOf us, line, false, none⟩ : Tok).is c!"{" = false ∧ (⟨textOf us, line, false, none⟩ : Tok).is c!"}" = false ∧
    (⟨textOf us, line, false, none⟩ : Tok).isTerm = false ∧ (⟨textOf us, line, false, none⟩ : Tok).isCommentTok = false := by
  obtain ⟨c, r, h, h1, h2⟩ := word_head hu
  have ho : c ≠ '{' := by rintro rfl; revert h1; decide
  have hc : c ≠ '}' := by rintro rfl; revert h1; decide
  have hs : c ≠ ';' := by rintro rfl; revert h1; decide
  rw [h]
  simp [Tok.is, Tok.isTerm, Tok.isCommentTok, hasPrefix, List.isPrefixOf, ho, hc, hs, Ne.symm h2]

theorem specToks_prefix {items : List Item} (hw : WF items) : ∀ {line start depth dup g} (pre suf : List Tok),
    specToks line start depth dup g items = pre ++ suf → 0 ≤ (depth : Int) + net pre := by
  have single : ∀ {t : Tok} {depth : Nat} {pre suf : List Tok}, net [t] = 0 → [t] = pre ++ suf → 0 ≤ (depth : Int) + net pre := by
    intro t depth pre suf h0 h
    cases pre with
    | nil => simp [net]
    | cons a as =>
      simp only [List.cons_append, List.cons.injEq] at h
      obtain ⟨rfl, h⟩ := h
      have : as = [] := by
        cases as with
        | nil => rfl
        | cons => cases h
      subst this
      omega
  induction items with
  | nil =>
    intro line start depth dup g pre suf h
    simp only [specToks] at h
    split at h
    · exact single (by simp [net, Tok.is]) h
    · obtain ⟨rfl, -⟩ := List.append_eq_nil_iff.mp h.symm
      simp [net]
  | cons i rest ih =>
    intro line start depth dup g pre suf h
    cases i with
    | space c => simp only [specToks] at h; exact ih hw.2.2 _ _ h
    | word us =>
      simp only [specToks] at h
      cases pre with
      | nil => simp [net]
      | cons a as =>
        simp only [List.cons_append, List.cons.injEq] at h
        obtain ⟨rfl, h⟩ := h
        have h1 := ih hw.2.2.2 _ _ h
        obtain ⟨h2, h3, -, -⟩ := word_tok hw.2.1 (wordLine line us)
        simp only [net, h2, h3, Bool.false_eq_true, if_false]
        omega
    | quoted q us closed =>
      simp only [specToks] at h
      split at h
      · cases pre with
        | nil => simp [net]
        | cons a as =>
          simp only [List.cons_append, List.nil_append, List.cons.injEq] at h
          obtain ⟨rfl, h⟩ := h
          have h1 := ih hw.2.2.2 _ _ h
          simp only [net, Tok.is, Bool.not_true, Bool.and_false, Bool.false_eq_true, if_false]
          omega
      · exact ih hw.2.2.2 _ _ h
    | comment us e =>
      simp only [specToks] at h
      cases pre with
      | nil => simp [net]
      | cons a as =>
        simp only [List.cons_append, List.cons.injEq] at h
        obtain ⟨rfl, h⟩ := h
        have h1 := ih hw.2.2 _ _ h
        simp [net, Tok.is]
        omega
    | special c =>
      simp only [specToks] at h
      split at h
      · exact single (by simp [net, Tok.is]) h
      · split at h
        · exact single (by simp [net, Tok.is]) h
        · rename_i h1 h2
          cases pre with
          | nil => simp [net]
          | cons a as =>
            simp only [List.cons_append, List.cons.injEq] at h
            obtain ⟨rfl, h⟩ := h
            have h3 := ih hw.2 _ _ h
            by_cases ho : c = '{'
            · subst ho
              simp [net, Tok.is] at h3 ⊢
              omega
            · by_cases hc : c = '}'
              · subst hc
                simp [net, Tok.is] at h2 h3 ⊢
                omega
              · simp [net, Tok.is, ho, hc] at h3 ⊢
                omega

/-- No prefix of the tokens of a text closes more braces than it opens. -/
theorem lex_prefix (s : Str) (pre suf : List Tok) (h : lex s = pre ++ suf) : 0 ≤ net pre := by
  obtain ⟨items, d, e, w, hd, hl⟩ := lex_cover s
  rw [hl] at h
  simpa using specToks_prefix w pre suf h

/-- No `{` comes directly, comments aside, after a token that ends a statement; `b`: the list comes after such a token. -/
def BraceOk : Bool → List Tok → Prop
  | _, [] => True
  | b, t :: ts => if t.isCommentTok then BraceOk b ts else (b = true → t.is c!"{" = false) ∧ BraceOk t.isTerm ts

theorem specToks_braceOk {items : List Item} (hw : WF items) : ∀ {line start depth dup g}, BraceOk dup (specToks line start depth dup g items) := by
  have errTok : ∀ {b line e}, BraceOk b [⟨[], line, false, some e⟩] := by
    intro b line e
    unfold BraceOk
    rw [if_neg (by simp [Tok.isCommentTok, hasPrefix])]
    exact ⟨fun _ => by simp [Tok.is], trivial⟩
  induction items with
  | nil =>
    intro line start depth dup g
    simp only [specToks]
    split
    · exact errTok
    · trivial
  | cons i rest ih =>
    intro line start depth dup g
    cases i with
    | space c => simp only [specToks]; exact ih hw.2.2
    | word us =>
      simp only [specToks]
      obtain ⟨h1, h2, h3, h4⟩ := word_tok hw.2.1 (wordLine line us)
      unfold BraceOk
      rw [if_neg (by simp [h4]), h3]
      exact ⟨fun _ => h1, ih hw.2.2.2⟩
    | quoted q us closed =>
      simp only [specToks]
      split
      · simp only [List.cons_append, List.nil_append]
        unfold BraceOk
        rw [if_neg (by simp [Tok.isCommentTok])]
        exact ⟨fun _ => by simp [Tok.is], by simpa [Tok.isTerm] using ih hw.2.2.2⟩
      · rename_i hn
        have hcl : closed = false := by
          cases closed with
          | true => simp at hn
          | false => rfl
        rw [hw.2.2.1 hcl]
        simp only [specToks, List.nil_append]
        split
        · exact errTok
        · trivial
    | comment us e =>
      simp only [specToks]
      unfold BraceOk
      rw [if_pos (by simp [Tok.isCommentTok, hasPrefix])]
      exact ih hw.2.2
    | special c =>
      simp only [specToks]
      split
      · exact errTok
      · split
        · exact errTok
        · rename_i h1 h2
          have hsp := hw.1
          have hcases : c = '{' ∨ c = '}' ∨ c = ';' := by
            simp [isSpecialChar] at hsp
            tauto
          unfold BraceOk
          rw [if_neg (by rcases hcases with h | h | h <;> (subst h; simp [Tok.isCommentTok, hasPrefix]))]
          refine ⟨fun hd => ?_, ?_⟩
          · subst hd
            simp at h1
            subst h1
            simp [Tok.is]
          · have : (⟨[c], if g then start else line, false, none⟩ : Tok).isTerm = true := by
              rcases hcases with h | h | h <;> (subst h; simp [Tok.isTerm])
            simp only [this]
            exact ih hw.2

theorem lex_braceOk (s : Str) : BraceOk false (lex s) := by
  obtain ⟨items, d, e, w, hd, hl⟩ := lex_cover s
  rw [hl]
  exact specToks_braceOk w

/-- The first token other than comments is not `{`. -/
def StartsOk (toks : List Tok) : Prop := ∀ t, (toks.filter (!·.isCommentTok)).head? = some t → t.is c!"{" = false

theorem BraceOk.start {toks : List Tok} (h : BraceOk false toks) (hs : StartsOk toks) : BraceOk true toks := by
  induction toks with
  | nil => trivial
  | cons t ts ih =>
    unfold BraceOk at h ⊢
    split at h
    · rename_i hc
      rw [if_pos hc]
      refine ih h fun x hx => hs x ?_
      rw [List.filter_cons, if_neg (by simp [hc])]
      exact hx
    · rename_i hc
      rw [if_neg hc]
      refine ⟨fun _ => hs t ?_, h.2⟩
      rw [List.filter_cons, if_pos (by simpa using hc)]
      rfl

/-! ## The parser -/

/-- What the lexer guarantees: an error token is the last one, and does not end a statement. -/
structure ErrLast (toks : List Tok) : Prop where
  last : ∀ t ∈ toks.dropLast, t.error = none
  term : ∀ t ∈ toks, t.error ≠ none → t.isTerm = false

theorem ErrLast.suffix {pre suf : List Tok} (h : ErrLast (pre ++ suf)) : ErrLast suf where
  last t ht := by
    refine h.last t ?_
    have : suf ≠ [] := by rintro rfl; cases ht
    rw [List.dropLast_append_of_ne_nil this]
    exact List.mem_append_right _ ht
  term t ht := h.term t (List.mem_append_right _ ht)

theorem ErrLast.tail {t : Tok} {toks : List Tok} (h : ErrLast (t :: toks)) : ErrLast toks := ErrLast.suffix (pre := [t]) h

theorem lex_errLast (s : Str) : ErrLast (lex s) := by
  rcases C07_errors s with h | ⟨ts, t, e, h1, h2, h3, h4, h5, -⟩
  · exact ⟨fun t ht => h t (List.dropLast_subset _ ht), fun t ht he => absurd (h t ht) he⟩
  · rw [h1]
    refine ⟨fun x hx => h2 x (by simpa using hx), fun x hx he => ?_⟩
    rcases List.mem_append.mp hx with hx | hx
    · exact absurd (h2 x hx) he
    · obtain rfl := List.mem_singleton.mp hx
      simp [Tok.isTerm, h4]

/-- The tokens of the arguments of a statement: none is in error, none is a brace. -/
theorem readArgs_split {pc : Bool} {args comments : List Str} {toks : List Tok} {r : List Str × List Str × Tok × List Tok}
    (h : readArgs pc args comments toks = some r) : ∃ mid, toks = mid ++ r.2.2.1 :: r.2.2.2 ∧ (∀ t ∈ mid, t.isTerm = false) ∧ r.2.2.1.isTerm = true := by
  induction toks generalizing args comments with
  | nil => simp [readArgs] at h
  | cons t toks ih =>
    unfold readArgs at h
    split at h
    · rename_i ht; cases h; exact ⟨[], rfl, by simp, ht⟩
    · rename_i ht
      have key : ∀ {args comments}, readArgs pc args comments toks = some r →
          ∃ mid, t :: toks = mid ++ r.2.2.1 :: r.2.2.2 ∧ (∀ t ∈ mid, t.isTerm = false) ∧ r.2.2.1.isTerm = true := by
        intro args comments h
        obtain ⟨mid, h1, h2, h3⟩ := ih h
        refine ⟨t :: mid, by rw [h1]; rfl, ?_, h3⟩
        intro x hx
        rcases List.mem_cons.mp hx with rfl | hx
        · simpa using ht
        · exact h2 x hx
      split at h
      · exact key h
      · split at h
        · exact key h
        · exact key h

theorem net_of_not_term {mid : List Tok} (h : ∀ t ∈ mid, t.isTerm = false) : net mid = 0 := by
  induction mid with
  | nil => rfl
  | cons t ts ih =>
    have h1 := h t (by simp)
    have h2 := ih fun x hx => h x (List.mem_cons_of_mem _ hx)
    simp only [net, h2]
    simp only [Tok.isTerm] at h1
    have : t.is c!"{" = false ∧ t.is c!"}" = false := by
      unfold Tok.is
      cases hq : t.quoted with
      | true => simp
      | false =>
        rw [hq] at h1
        simp at h1
        simp
        tauto
    simp [this.1, this.2]

theorem EndsStatement.append {a b : List Tok} (hb : EndsStatement b) (ha : EndsStatement a) : EndsStatement (a ++ b) := by
  intro t ht
  rw [List.filter_append, List.getLast?_append] at ht
  cases hl : (b.filter (!·.isCommentTok)).getLast? with
  | none => rw [hl] at ht; exact ha t (by simpa using ht)
  | some x => rw [hl] at ht; simp at ht; subst ht; exact hb x hl

theorem isTerm_not_comment {t : Tok} (h : t.isTerm = true) : t.isCommentTok = false := by
  simp only [Tok.isTerm] at h
  unfold Tok.isCommentTok
  cases hq : t.quoted with
  | true => simp
  | false =>
    rw [hq] at h
    simp at h
    have : t.value = c!"{" ∨ t.value = c!";" ∨ t.value = c!"}" := by tauto
    rcases this with h | h | h <;> (rw [h]; decide)

/-- After the arguments of a statement comes a token that may not be `{`. -/
theorem BraceOk.after {b : Bool} {mid : List Tok} {term : Tok} {rest : List Tok} (h : BraceOk b (mid ++ term :: rest)) (ht : term.isTerm = true) :
    BraceOk true rest := by
  induction mid generalizing b with
  | nil =>
    simp only [List.nil_append] at h
    unfold BraceOk at h
    rw [if_neg (by simp [isTerm_not_comment ht]), ht] at h
    exact h.2
  | cons t ts ih =>
    simp only [List.cons_append] at h
    unfold BraceOk at h
    split at h
    · exact ih h
    · exact ih h.2

/-- The tokens of a statement, from the first one to the terminator. -/
structure StmtToks (pre : List Tok) (term : Tok) : Prop where
  noErr : ∀ x ∈ pre, x.error = none
  net : net pre = if term.is c!"{" then 1 else if term.is c!"}" then -1 else 0
  ends : EndsStatement pre

theorem Reads.split {o : ParseOptions} {t : Tok} {toks : List Tok} {args comments : List Str} {term : Tok} {rest : List Tok}
    (R : Reads o t toks args comments term rest) (hl : ErrLast (t :: toks)) (hb : BraceOk true (t :: toks)) :
    ∃ pre, t :: toks = pre ++ rest ∧ StmtToks pre term ∧ ErrLast rest ∧ BraceOk true rest := by
  obtain ⟨mid, h1, h2, h3⟩ := readArgs_split R.read
  simp only at h1 h3
  have hsplit : t :: toks = (t :: mid ++ [term]) ++ rest := by rw [h1]; simp
  have hopen : t.is c!"{" = false := by
    unfold BraceOk at hb
    rw [if_neg (by simp [R.notComment])] at hb
    exact hb.1 rfl
  refine ⟨t :: mid ++ [term], hsplit, ⟨?_, ?_, ?_⟩, ErrLast.suffix (hsplit ▸ hl), ?_⟩
  · intro x hx
    rcases List.mem_append.mp hx with hx | hx
    · rcases List.mem_cons.mp hx with rfl | hx
      · exact R.noErr
      · refine hl.last x ?_
        rw [h1, show t :: (mid ++ term :: rest) = (t :: mid) ++ (term :: rest) from rfl, List.dropLast_append_of_ne_nil (by simp)]
        exact List.mem_append_left _ (List.mem_cons_of_mem _ hx)
    · obtain rfl := List.mem_singleton.mp hx
      by_contra he
      have := hl.term x (by rw [h1]; simp) he
      rw [h3] at this; cases this
  · rw [net_append]
    simp [Verif.net, hopen, R.notClose, net_of_not_term h2]
  · intro x hx
    rw [List.filter_append, List.filter_singleton, isTerm_not_comment h3] at hx
    simp at hx
    subst hx; exact h3
  · refine BraceOk.after (mid := t :: mid) (term := term) (b := true) ?_ h3
    rw [List.cons_append, ← h1]
    exact hb

theorem mapBody_term {ctx : List Str} {m file term : Str} {d : Directive} (hm : mapCtx ctx = some m) (h : analyzeMapBody file d term m = none) :
    term = c!";" := by
  unfold mapCtx at hm
  split at hm
  · split at hm
    · cases hm
      rename_i hs
      obtain ⟨masks, hl⟩ := Option.isSome_iff_exists.mp hs
      exact ((analyzeMapBody_iff hl).mp h).1
    · cases hm
  · cases hm

/-- A run without new errors, nothing being ignored, stops at a brace that closes one more than were opened, or consumes all its tokens; then
none of them is in error and no statement is unfinished. -/
theorem RunOk.clean {env : Env} {o : ParseOptions} {configDir file : Str} {ctx : Ctx} {toks : List Tok} {ps : PS}
    {ds : List Directive} {toks' : List Tok} {ps' : PS} (h : RunOk env o configDir file ctx toks ps ds toks' ps')
    (hi : o.ignoreDirectives = []) (he : ps'.payErrors.length = ps.payErrors.length) (hl : ErrLast toks) (hb : BraceOk true toks) :
    ∃ pre, toks = pre ++ toks' ∧ (∀ t ∈ pre, t.error = none) ∧ EndsStatement pre ∧ BraceOk true toks' ∧
      (toks' = [] ∨ net pre ≤ -1) := by
  induction h with
  | eof => exact ⟨[], rfl, by simp, (fun t ht => (by cases ht)), trivial, Or.inl rfl⟩
  | stop ctx t toks ps toks' ps' hs =>
    have hc := step_cases env o configDir file ctx t toks ps
    rw [hs] at hc
    cases hc with
    | close h1 h2 =>
      have hterm : t.isTerm = true := by
        unfold Tok.is at h2
        simp at h2
        simp [Tok.isTerm, h2.1, h2.2]
      refine ⟨[t], rfl, by simpa using h1, ?_, ?_, Or.inr ?_⟩
      · intro x hx
        rw [List.filter_singleton, isTerm_not_comment hterm] at hx
        simp at hx
        subst hx; exact hterm
      · exact BraceOk.after (mid := []) hb hterm
      · have : t.is c!"{" = false := by
          unfold Tok.is at h2 ⊢
          simp at h2
          simp [h2.1]
        simp [net, h2, this]
    | rejectStop args comments term rest err R h1 h2 h3 h4 h5 h6 =>
      simp [handleError] at he
  | next ctx t toks ps new toks1 ps1 ds toks' ps' hs hr ih =>
    have g1 := ((payErrors_rel o file).step env configDir ctx t toks ps).length_le
    rw [hs] at g1
    have g1 : ps.payErrors.length ≤ ps1.payErrors.length := g1
    have g2 := ((payErrors_rel o file).runOk hr).length_le
    have key : ∀ pre1, t :: toks = pre1 ++ toks1 → (∀ x ∈ pre1, x.error = none) → EndsStatement pre1 → ErrLast toks1 → BraceOk true toks1 → net pre1 ≤ 0 →
        ∃ pre, t :: toks = pre ++ toks' ∧ (∀ t ∈ pre, t.error = none) ∧ EndsStatement pre ∧ BraceOk true toks' ∧
          (toks' = [] ∨ net pre ≤ -1) := by
      intro pre1 h1 h2 h3 h4 h5 h6
      obtain ⟨pre2, i1, i2, i3, i4, i5⟩ := ih (by omega) h4 h5
      refine ⟨pre1 ++ pre2, by rw [h1, i1, List.append_assoc], ?_, i3.append h3, i4, ?_⟩
      · intro x hx
        rcases List.mem_append.mp hx with hx | hx
        exacts [h2 x hx, i2 x hx]
      · rcases i5 with i5 | i5
        · exact Or.inl i5
        · right; rw [net_append]; omega
    have hc := step_cases env o configDir file ctx t toks ps
    rw [hs] at hc
    have hend : t.isCommentTok = true → EndsStatement [t] := by
      intro h x hx
      rw [List.filter_singleton, h] at hx
      simp at hx
    have netStmt : ∀ {pre : List Tok} {term : Tok}, StmtToks pre term → term.is c!"{" = false → net pre ≤ 0 := by
      intro pre term h h1
      rw [h.net, h1]
      simp only [Bool.false_eq_true, if_false]
      split <;> omega
    cases hc with
    | comment h1 h2 h3 =>
      refine key [t] rfl (by simpa using h1) (hend h3) hl.tail ?_ ?_
      · unfold BraceOk at hb
        rwa [if_pos h3] at hb
      · have : t.is c!"{" = false := by
          unfold Tok.is
          unfold Tok.isCommentTok at h3
          simp at h3 ⊢
          intro hv; rw [hv] at h3; simp [hasPrefix] at h3
        simp [net, this, h2]
    | mapBad => simp [handleError] at g2 he; omega
    | mapOk args comments term rest m R hm ha =>
      obtain ⟨pre, h1, h2, h3, h4⟩ := R.split hl hb
      refine key pre h1 h2.noErr h2.ends h3 h4 (netStmt h2 ?_)
      have : term.value = c!";" := mapBody_term hm ha
      unfold Tok.is; simp [this]
    | ignored args comments term rest R hm hig => rw [hi] at hig; cases hig
    | rejectSkip => simp [handleError] at g2 he; omega
    | reject => simp [handleError] at g2 he; omega
    | simple args comments term rest stmt stmt' ps' R h1 h2 h3 h4 h5 h6 =>
      obtain ⟨pre, h1, h2, h3, h4⟩ := R.split hl hb
      exact key pre h1 h2.noErr h2.ends h3 h4 (netStmt h2 h6)
  | block ctx t toks ps stmt comments toks1 ps1 b toks2 ps2 ds toks' ps' hs hr1 hr2 ih1 ih2 =>
    have g1 := ((payErrors_rel o file).step env configDir ctx t toks ps).length_le
    rw [hs] at g1
    have g1 : ps.payErrors.length ≤ ps1.payErrors.length := g1
    have g0 := ((payErrors_rel o file).enter stmt ctx ps1).length_le
    have g2 := ((payErrors_rel o file).runOk hr1).length_le
    have g3 := ((payErrors_rel o file).runOk hr2).length_le
    have hc := step_cases env o configDir file ctx t toks ps
    rw [hs] at hc
    cases hc with
    | block args comments term rest stmt stmt' ps' R h1 h2 h3 h4 h5 h6 =>
      obtain ⟨pre, a1, a2, a3, a4⟩ := R.split hl hb
      obtain ⟨pre1, b1, b2, b3, b4, b5⟩ := ih1 (by omega) a3 a4
      obtain ⟨pre2, c1, c2, c3, c4, c5⟩ := ih2 (by omega) (ErrLast.suffix (b1 ▸ a3)) b4
      refine ⟨pre ++ (pre1 ++ pre2), by rw [a1, b1, c1]; simp, ?_, (c3.append b3).append a2.ends, c4, ?_⟩
      · intro x hx
        rcases List.mem_append.mp hx with hx | hx
        · exact a2.noErr x hx
        · rcases List.mem_append.mp hx with hx | hx
          exacts [b2 x hx, c2 x hx]
      · rcases c5 with c5 | c5
        · exact Or.inl c5
        · rcases b5 with b5 | b5
          · subst b5
            have : toks' = [] := by
              rw [List.nil_eq_append_iff] at c1
              exact c1.2
            exact Or.inl this
          · right
            rw [net_append, net_append, a2.net, h6]
            simp only [if_true]
            omega

/-! ## The property -/

/-- The rest of a run of the worklist loop. -/
theorem FilesMore.rest {env : Env} {o : ParseOptions} {configDir : Str} {n : Nat} {ps ps1 : PS} (h : FilesMore env o configDir n ps ps1) :
    ∀ {cs ps'}, FilesOk env o configDir ps cs ps' → ∃ cs1, FilesOk env o configDir ps1 cs1 ps' := by
  induction h with
  | zero => exact fun h => ⟨_, h⟩
  | ok n ps incl rest data ds toks' ps1 ps' hi ho hr hf ih =>
    intro cs ps2 h
    cases h with
    | nil _ h => rw [h] at hi; cases hi
    | ok _ _ _ _ _ _ _ _ _ hi' ho' hr' hf' =>
      rw [hi] at hi'; cases hi'; rw [ho] at ho'; cases ho'
      obtain ⟨-, -, rfl⟩ := hr.det hr'
      exact ih hf'
    | bad _ _ _ _ _ _ _ _ _ hi' ho' hr' =>
      rw [hi] at hi'; cases hi'; rw [ho] at ho'; cases ho'
      exact absurd hr' (fun h => hr.not_fail h)
  | bad n ps incl rest data e toks' ps1 ps' hi ho hr hs hf ih =>
    intro cs ps2 h
    cases h with
    | nil _ h => rw [h] at hi; cases hi
    | ok _ _ _ _ _ _ _ _ _ hi' ho' hr' =>
      rw [hi] at hi'; cases hi'; rw [ho] at ho'; cases ho'
      exact absurd hr (fun h => hr'.not_fail h)
    | bad _ _ _ _ _ _ _ _ _ hi' ho' hr' _ hf' =>
      rw [hi] at hi'; cases hi'; rw [ho] at ho'; cases ho'
      obtain ⟨he, -, rfl⟩ := hr.det hr'
      cases he
      exact ih hf'

/-- The file at the head of the worklist, after `n` others, has the contents `data`. -/
def ParsesFile (env : Env) (o : ParseOptions) (filename : Str) (n : Nat) (file : Str) (data : FileData) : Prop :=
  ∃ ps incl rest, FilesMore env o (env.dir filename) n (initPS filename) ps ∧ ps.includes = incl :: rest ∧ incl.path = file ∧
    env.openFile ps.opens incl.path = .ok data

/-- C31 for the lexer's own tokens, with nothing ignored and no file starting with `{`: if the payload is ok, no file has an error token and none
ends in the middle of a statement.  Missing: external lexers, IgnoreDirectives and a `{` at the start, for which it is false. -/
theorem C31_partial {env : Env} {fuel : Nat} {filename : Str} {o : ParseOptions} {p : Payload} (h : Parse env fuel filename o = .ok p)
    (hlex : o.lexers = []) (hi : o.ignoreDirectives = []) (hs : p.status = c!"ok") {n : Nat} {file : Str} {data : FileData}
    (hf : ParsesFile env o filename n file data) (hst : StartsOk (lex data.runes)) :
    (∀ t ∈ lex data.runes, t.error = none) ∧ EndsStatement (lex data.runes) := by
  obtain ⟨ps, incl, rest, hm, hin, -, ho⟩ := hf
  obtain ⟨cs, ps', hok, hp⟩ := Parse_errors h
  have he : ps'.payErrors = [] := by
    rcases (C17_status h).1 with ⟨h1, -⟩ | ⟨-, h1⟩
    · rw [hs] at h1; simp at h1
    · rw [← hp, h1]
  have hft : fileToks o data = lex data.runes := by unfold fileToks lex; rw [hlex]; rfl
  obtain ⟨cs1, h1⟩ := hm.rest hok
  cases h1 with
  | nil _ h => rw [h] at hin; cases hin
  | bad _ _ _ _ _ _ _ _ _ hi' ho' hr hs hf =>
    have := hf.errors_grow
    rw [he, List.prefix_nil] at this
    simp [handleError] at this
  | ok _ _ _ _ ds toks' ps1 _ _ hi' ho' hr hf =>
    rw [hin] at hi'; cases hi'; rw [ho] at ho'; cases ho'
    have g1 := hf.errors_grow
    rw [he, List.prefix_nil] at g1
    have g2 := (payErrors_rel o incl.path).runOk hr
    rw [g1, List.prefix_nil] at g2
    obtain ⟨pre, h1, h2, h3, -, h4⟩ := hr.clean hi (by rw [g1, g2]) (by rw [hft]; exact lex_errLast _)
      (by rw [hft]; exact (lex_braceOk _).start hst)
    rw [hft] at h1
    rcases h4 with rfl | h4
    · rw [List.append_nil] at h1
      rw [h1]; exact ⟨h2, h3⟩
    · have := lex_prefix _ _ _ h1
      omega

/-- The hypotheses of `C31_partial` are met by a file with a nested block and comments. -/
example : StartsOk (lex c!"# c\nhttp{server{}}") ∧ (∀ t ∈ lex c!"# c\nhttp{server{}}", t.error = none) ∧
    Parse (exEnv [(c!"/e/n", c!"# c\nhttp{server{}}")]) 2 c!"/e/n" exOpts =
      .ok (okPayload [(c!"/e/n", [blk c!"http" 2 [] [blk c!"server" 2 [] []]])]) := by
  refine ⟨?_, by decide +kernel, by decide +kernel⟩
  have : ((lex c!"# c\nhttp{server{}}").filter (!·.isCommentTok)).head? = some ⟨c!"http", 2, false, none⟩ := by decide +kernel
  intro t ht
  rw [this] at ht
  cases ht; decide

/-- C31 is false with IgnoreDirectives: the error of an unclosed block of an ignored directive is lost. -/
theorem C31_false_ignored : ∃ (env : Env) (o : ParseOptions) (p : Payload), o.lexers = [] ∧ Parse env 2 c!"/e/n" o = .ok p ∧ p.status = c!"ok" ∧
    env.openFile 0 c!"/e/n" = .ok { runes := c!"http{" } ∧ ∃ t ∈ lex c!"http{", t.error ≠ none :=
  ⟨exEnv [(c!"/e/n", c!"http{")], { exOpts with ignoreDirectives := [c!"http"] }, okPayload [(c!"/e/n", [])], rfl,
    by decide +kernel, rfl, rfl, by decide +kernel⟩

/-- C31 is false for a file that starts with `{`: that is taken for the name of a directive, and the parser stops at the matching brace. -/
theorem C31_false_brace : ∃ (env : Env) (o : ParseOptions) (p : Payload), o.lexers = [] ∧ o.ignoreDirectives = [] ∧ Parse env 2 c!"/e/n" o = .ok p ∧
    p.status = c!"ok" ∧ env.openFile 0 c!"/e/n" = .ok { runes := c!"{a;}http{" } ∧ ∃ t ∈ lex c!"{a;}http{", t.error ≠ none :=
  ⟨exEnv [(c!"/e/n", c!"{a;}http{")], exOpts, okPayload [(c!"/e/n", [dir c!"{" 1 [c!"a"]])], rfl, rfl,
    by decide +kernel, rfl, rfl, by decide +kernel⟩

/-- An external lexer that sends a word token with an error. -/
def exBadLexer : RegisterLexer := { l := fun _ line => ([⟨c!"x", line, false, some (.other c!"oops")⟩], 0), stringTokens := [c!"user"] }

/-- C31 is false with external lexers: the error of a token in argument position is not looked at. -/
theorem C31_false_external : ∃ (env : Env) (o : ParseOptions) (p : Payload), o.ignoreDirectives = [] ∧ Parse env 2 c!"/e/n" o = .ok p ∧
    p.status = c!"ok" ∧ env.openFile 0 c!"/e/n" = .ok { runes := c!"user ;" } ∧ ∃ t ∈ lexWith (extLexersOf o.lexers) c!"user ;", t.error ≠ none :=
  ⟨exEnv [(c!"/e/n", c!"user ;")], { exOpts with lexers := [exBadLexer] }, okPayload [(c!"/e/n", [dir c!"user" 1 [c!"x"]])], rfl,
    by decide +kernel, rfl, rfl, by decide +kernel⟩

end Verif
