import Verif.Props.Clean
import Verif.Spec.Source
import Mathlib.Data.List.Forall2
/-!
# C28: the tree is the source
-/
namespace Verif
open Spec

theorem is_mark {t : Tok} {v : Str} : t.is v = true ↔ Mark t v := by
  unfold Tok.is Mark
  cases t.quoted <;> simp

theorem is_mark_false {t : Tok} {v : Str} : t.is v = false ↔ ¬ Mark t v := by rw [← is_mark]; simp

theorem isTerm_mark {t : Tok} : t.isTerm = true ↔ Mark t c!"{" ∨ Mark t c!"}" ∨ Mark t c!";" := by
  rw [isTerm_iff]; unfold Mark; tauto

theorem isCommentTok_iff {t : Tok} : t.isCommentTok = true ↔ ∃ text, CommentTok t text := by
  unfold Tok.isCommentTok CommentTok Mark
  constructor
  · intro h
    simp only [Bool.and_eq_true, Bool.not_eq_true'] at h
    obtain ⟨h1, h2⟩ := h
    cases hv : t.value with
    | nil => rw [hv] at h1; simp [hasPrefix] at h1
    | cons c r =>
      rw [hv] at h1
      simp [hasPrefix, List.isPrefixOf] at h1
      exact ⟨r, h2, by rw [← h1]⟩
  · rintro ⟨text, h1, h2⟩
    rw [h1, h2]; simp [hasPrefix, List.isPrefixOf]

theorem wordTok_iff {t : Tok} : WordTok t ↔ t.isTerm = false ∧ t.isCommentTok = false := by
  rw [← Bool.not_eq_true, ← Bool.not_eq_true, isTerm_mark, isCommentTok_iff]
  unfold WordTok
  constructor
  · rintro ⟨h1, h2, h3, h4⟩
    exact ⟨by tauto, by rintro ⟨x, hx⟩; exact h1 x hx⟩
  · rintro ⟨h1, h2⟩
    exact ⟨fun x hx => h2 ⟨x, hx⟩, by tauto, by tauto, by tauto⟩

/-- Where the three special tokens may stand; `b`: the list comes after one of them. -/
def Statements : Bool → List Tok → Prop
  | _, [] => True
  | b, t :: ts => if t.isCommentTok then Statements b ts
    else (b = true → t.is c!"{" = false ∧ t.is c!";" = false) ∧ (b = false → t.is c!"}" = false) ∧ Statements t.isTerm ts

/-- What the lexer guarantees about the special tokens. -/
def NoDup : Bool → List Tok → Prop
  | _, [] => True
  | b, t :: ts => if t.isCommentTok then NoDup b ts else (b = true → t.is c!"{" = false ∧ t.is c!";" = false) ∧ NoDup t.isTerm ts

theorem specToks_noDup {items : List Item} (hw : WF items) : ∀ {line start depth dup g}, NoDup dup (specToks line start depth dup g items) := by
  have errTok : ∀ {b line e}, NoDup b [⟨[], line, false, some e⟩] := by
    intro b line e
    unfold NoDup
    rw [if_neg (by simp [Tok.isCommentTok, hasPrefix])]
    exact ⟨fun _ => by simp [Tok.is], trivial⟩
  induction items with
  | nil =>
    intro line start depth dup g
    simp only [specToks]
    split
    · exact errTok
    · trivial
  | cons i rest ih =>
    intro line start depth dup g
    cases i with
    | space c => simp only [specToks]; exact ih hw.2.2
    | word us =>
      simp only [specToks]
      obtain ⟨h1, h2, h3, h4⟩ := word_tok hw.2.1 (wordLine line us)
      unfold NoDup
      rw [if_neg (by simp [h4]), h3]
      refine ⟨fun _ => ⟨h1, ?_⟩, ih hw.2.2.2⟩
      rw [is_mark_false]
      intro hm
      have := isTerm_mark.mpr (Or.inr (Or.inr hm))
      rw [h3] at this; cases this
    | quoted q us closed =>
      simp only [specToks]
      split
      · simp only [List.cons_append, List.nil_append]
        unfold NoDup
        rw [if_neg (by simp [Tok.isCommentTok])]
        exact ⟨fun _ => by simp [Tok.is], by simpa [Tok.isTerm] using ih hw.2.2.2⟩
      · rename_i hn
        have hcl : closed = false := by
          cases closed with
          | true => simp at hn
          | false => rfl
        rw [hw.2.2.1 hcl]
        simp only [specToks, List.nil_append]
        split
        · exact errTok
        · trivial
    | comment us e =>
      simp only [specToks]
      unfold NoDup
      rw [if_pos (by simp [Tok.isCommentTok, hasPrefix])]
      exact ih hw.2.2
    | special c =>
      simp only [specToks]
      split
      · exact errTok
      · split
        · exact errTok
        · rename_i h1 h2
          have hsp := hw.1
          have hcases : c = '{' ∨ c = '}' ∨ c = ';' := by
            simp [isSpecialChar] at hsp
            tauto
          unfold NoDup
          rw [if_neg (by rcases hcases with h | h | h <;> (subst h; simp [Tok.isCommentTok, hasPrefix]))]
          refine ⟨fun hd => ?_, ?_⟩
          · subst hd
            simp at h1
            subst h1
            simp [Tok.is]
          · have : (⟨[c], if g then start else line, false, none⟩ : Tok).isTerm = true := by
              rcases hcases with h | h | h <;> (subst h; simp [Tok.isTerm])
            simp only [this]
            exact ih hw.2

theorem lex_noDup (s : Str) : NoDup false (lex s) := by
  obtain ⟨items, d, e, w, hd, hl⟩ := lex_cover s
  rw [hl]
  exact specToks_noDup w

theorem NoDup.statements {toks : List Tok} : ∀ {b : Bool}, NoDup b toks →
    (∀ cs u rest, toks = cs ++ u :: rest → (∀ c ∈ cs, ∃ text, CommentTok c text) → b = false → ¬ Mark u c!"}") →
    StatementsEnd toks → Statements b toks := by
  induction toks with
  | nil => intros; trivial
  | cons t ts ih =>
    intro b hd hb he
    have he' : StatementsEnd ts := fun a x cs u r h => he (t :: a) x cs u r (by rw [h]; rfl)
    unfold NoDup at hd
    unfold Statements
    by_cases hc : t.isCommentTok = true
    · rw [if_pos hc] at hd ⊢
      refine ih hd (fun cs u rest h hcs => ?_) he'
      refine hb (t :: cs) u rest (by rw [h]; rfl) ?_
      intro c hm
      rcases List.mem_cons.mp hm with rfl | hm
      · exact isCommentTok_iff.mp hc
      · exact hcs c hm
    · rw [if_neg hc] at hd ⊢
      refine ⟨hd.1, fun h => is_mark_false.mpr (hb [] t ts rfl (by simp) h), ih hd.2 (fun cs u rest h hcs hterm hu => ?_) he'⟩
      have h4 := he [] t cs u rest (by rw [h]; rfl) hcs hu
      rw [← isCommentTok_iff] at h4
      have : t.isTerm = true := isTerm_mark.mpr (by tauto)
      rw [hterm] at this; cases this

theorem NoDup.start {toks : List Tok} (h : NoDup false toks) (hs : StartsWithWord toks) : NoDup true toks := by
  induction toks with
  | nil => trivial
  | cons t ts ih =>
    unfold NoDup at h ⊢
    by_cases hc : t.isCommentTok = true
    · rw [if_pos hc] at h ⊢
      refine ih h fun cs u rest hu hcs => hs (t :: cs) u rest (by rw [hu]; rfl) ?_
      intro c hm
      rcases List.mem_cons.mp hm with rfl | hm
      · exact isCommentTok_iff.mp hc
      · exact hcs c hm
    · rw [if_neg hc] at h ⊢
      have := hs [] t ts rfl (by simp)
      exact ⟨fun _ => ⟨is_mark_false.mpr (by tauto), is_mark_false.mpr (by tauto)⟩, h.2⟩

/-! ## The parser -/

/-- The arguments and comments of a statement. -/
theorem readArgs_words {pc : Bool} {args0 comments0 : List Str} {toks : List Tok} {args comments : List Str} {term : Tok} {rest : List Tok}
    (h : readArgs pc args0 comments0 toks = some (args, comments, term, rest)) :
    ∃ mid as texts, toks = mid ++ term :: rest ∧ Words mid as texts ∧ args = args0 ++ as ∧
      comments = comments0 ++ (if pc then texts else []) ∧ term.isTerm = true ∧ ∀ t ∈ mid, t.isTerm = false := by
  induction toks generalizing args0 comments0 with
  | nil => simp [readArgs] at h
  | cons t toks ih =>
    unfold readArgs at h
    by_cases ht : t.isTerm = true
    · rw [if_pos ht] at h
      cases h
      exact ⟨[], [], [], rfl, .nil, by simp, by simp, ht, by simp⟩
    · rw [if_neg ht] at h
      have ht' : t.isTerm = false := by simpa using ht
      have hmem : ∀ {mid : List Tok}, (∀ x ∈ mid, x.isTerm = false) → ∀ x ∈ t :: mid, x.isTerm = false := by
        intro mid hm x hx
        rcases List.mem_cons.mp hx with rfl | hx
        exacts [ht', hm x hx]
      cases hc : t.isCommentTok with
      | false =>
        rw [hc] at h
        simp only [Bool.not_false, if_true] at h
        obtain ⟨mid, as, texts, h1, h2, h3, h4, h5, h6⟩ := ih h
        exact ⟨t :: mid, t.value :: as, texts, by rw [h1]; rfl, .word (wordTok_iff.mpr ⟨ht', hc⟩) h2, by rw [h3]; simp, h4, h5, hmem h6⟩
      | true =>
        rw [hc] at h
        obtain ⟨text, htext⟩ := isCommentTok_iff.mp hc
        cases pc with
        | true =>
          simp only [Bool.not_true, Bool.false_eq_true, if_false, if_true] at h
          obtain ⟨mid, as, texts, h1, h2, h3, h4, h5, h6⟩ := ih h
          refine ⟨t :: mid, as, text :: texts, by rw [h1]; rfl, .comment htext h2, h3, ?_, h5, hmem h6⟩
          rw [h4, htext.2]; simp
        | false =>
          simp only [Bool.not_true, Bool.false_eq_true, if_false] at h
          obtain ⟨mid, as, texts, h1, h2, h3, h4, h5, h6⟩ := ih h
          exact ⟨t :: mid, as, text :: texts, by rw [h1]; rfl, .comment htext h2, h3, by rw [h4]; simp, h5, hmem h6⟩

theorem Statements.after {mid : List Tok} {term : Tok} {rest : List Tok} (h : Statements false (mid ++ term :: rest))
    (hm : ∀ t ∈ mid, t.isTerm = false) (ht : term.isTerm = true) : term.is c!"}" = false ∧ Statements true rest := by
  induction mid with
  | nil =>
    simp only [List.nil_append] at h
    unfold Statements at h
    rw [if_neg (by simp [isTerm_not_comment ht]), ht] at h
    exact ⟨h.2.1 rfl, h.2.2⟩
  | cons t ts ih =>
    simp only [List.cons_append] at h
    unfold Statements at h
    split at h
    · exact ih h fun x hx => hm x (List.mem_cons_of_mem _ hx)
    · rw [hm t (by simp)] at h
      exact ih h.2.2 fun x hx => hm x (List.mem_cons_of_mem _ hx)

/-- What is known about the tokens of a statement. -/
theorem Reads.words {o : ParseOptions} {t : Tok} {toks : List Tok} {args comments : List Str} {term : Tok} {rest : List Tok}
    (R : Reads o t toks args comments term rest) (hst : Statements true (t :: toks)) :
    ∃ mid texts, toks = mid ++ term :: rest ∧ Words mid args texts ∧ comments = (if o.parseComments then texts else []) ∧
      WordTok t ∧ (Mark term c!"{" ∨ Mark term c!";") ∧ Statements true rest ∧ net (t :: mid) = 0 := by
  obtain ⟨mid, as, texts, h1, h2, h3, h4, h5, h6⟩ := readArgs_words R.read
  unfold Statements at hst
  rw [if_neg (by simp [R.notComment])] at hst
  have hterm : t.isTerm = false := by
    rw [← Bool.not_eq_true, isTerm_mark, ← is_mark, ← is_mark, ← is_mark]
    have h1 := hst.1 rfl
    have h2 := R.notClose
    simp [h1.1, h1.2, h2]
  have hs := hst.2.2
  rw [hterm, h1] at hs
  obtain ⟨h7, h8⟩ := hs.after h6 h5
  refine ⟨mid, texts, h1, ?_, by simpa using h4, wordTok_iff.mpr ⟨hterm, R.notComment⟩, ?_, h8, ?_⟩
  · simp at h3; rw [h3]; exact h2
  · have := isTerm_mark.mp h5
    rw [is_mark_false] at h7
    tauto
  · apply net_of_not_term
    intro x hx
    rcases List.mem_cons.mp hx with rfl | hx
    exacts [hterm, h6 x hx]

theorem commentDirectives_trailing {line : Int} {file : Str} {texts : List Str} :
    List.Forall₂ (fun c text => CommentDir c text line) (commentDirectives line file texts) texts := by
  induction texts with
  | nil => exact .nil
  | cons t ts ih => exact .cons ⟨rfl, rfl, rfl, rfl, rfl⟩ ih

/-- The statement that a round adds. -/
theorem stmt_heads {env : Env} {o : ParseOptions} {configDir file : Str} {ctx : Ctx} {t : Tok} {mid : List Tok} {args texts : List Str}
    {stmt stmt' : Directive} {ps ps' : PS} (hw : WordTok t) (hm : Words mid args texts) (hp : prepIf (baseStmt o file t args) = some stmt)
    (hd : doInclude env o configDir file ctx stmt ps = (.ok stmt', ps')) (b : Option (List Directive)) :
    Heads t mid { stmt' with block := b } texts ∧ stmt'.isMapBlockParameter = false ∧ stmt'.block = none ∧ stmt'.line = t.line := by
  have h1 := prepIf_some hp
  have hn : stmt.includes = none := by rw [h1]; rfl
  have h2 := (doInclude_ok hn hd).1
  have e1 : stmt'.directive = t.value := by rw [h2, h1]; rfl
  have e2 : stmt'.line = t.line := by rw [h2, h1]; rfl
  have e3 : stmt'.comment = none := by rw [h2, h1]; rfl
  have e4 : stmt'.isMapBlockParameter = false := by rw [h2, h1]; rfl
  have e5 : stmt'.args = stmt.args := by rw [h2]
  have e6 : stmt'.block = none := by rw [h2, h1]; rfl
  refine ⟨⟨hw, e1, e2, e3, args, hm, ?_⟩, e4, e6, e2⟩
  simp only [e4, and_true, e1, e5]
  unfold prepIf at hp
  split
  · rename_i hif
    rw [if_pos (by simpa [baseStmt] using hif)] at hp
    exact (prepareIfArgs_some hp).1
  · rename_i hif
    rw [if_neg (by simpa [baseStmt] using hif)] at hp
    cases hp; rfl

theorem noBlock {d : Directive} (h : d.block = none) : { d with block := none } = d := by
  obtain ⟨a, b, c, d, e, f, g, i⟩ := d
  cases h; rfl

theorem net_mark {t : Tok} : net [t] = if t.is c!"{" then 1 else if t.is c!"}" then -1 else 0 := by simp [net]

theorem net_open {t : Tok} (h : Mark t c!"{") : net [t] = 1 := by rw [net_mark, if_pos (is_mark.mpr h)]

theorem net_semi {t : Tok} (h : Mark t c!";") : net [t] = 0 := by
  rw [net_mark, if_neg (by rw [is_mark]; unfold Mark at *; rw [h.2]; simp), if_neg (by rw [is_mark]; unfold Mark at *; rw [h.2]; simp)]

theorem net_close {t : Tok} (h : Mark t c!"}") : net [t] = -1 := by
  rw [net_mark, if_neg (by rw [is_mark]; unfold Mark at *; rw [h.2]; simp), if_pos (is_mark.mpr h)]

/-- How a run ends: at a closing brace, or at the end of the tokens, maybe within a block. -/
def Ends (pc : Bool) (ds : List Directive) (pre toks' : List Tok) : Prop :=
  (∃ body c, pre = body ++ [c] ∧ Mark c c!"}" ∧ Source pc ds body ∧ net body = 0) ∨
  (toks' = [] ∧ (Source pc ds pre ∧ net pre = 0 ∨ 0 < net pre))

theorem RunOk.source {env : Env} {o : ParseOptions} {configDir file : Str} {ctx : Ctx} {toks : List Tok} {ps : PS}
    {ds : List Directive} {toks' : List Tok} {ps' : PS} (h : RunOk env o configDir file ctx toks ps ds toks' ps')
    (hi : o.ignoreDirectives = []) (he : ps'.payErrors.length = ps.payErrors.length) (hst : Statements true toks) :
    ∃ pre, toks = pre ++ toks' ∧ Statements true toks' ∧ Ends o.parseComments ds pre toks' := by
  induction h with
  | eof => exact ⟨[], rfl, trivial, Or.inr ⟨rfl, Or.inl ⟨.nil, rfl⟩⟩⟩
  | stop ctx t toks ps toks' ps' hs =>
    have hc := step_cases env o configDir file ctx t toks ps
    rw [hs] at hc
    cases hc with
    | close h1 h2 =>
      refine ⟨[t], rfl, ?_, Or.inl ⟨[], t, rfl, is_mark.mp h2, .nil, rfl⟩⟩
      have hterm : t.isTerm = true := isTerm_mark.mpr (Or.inr (Or.inl (is_mark.mp h2)))
      unfold Statements at hst
      rw [if_neg (by simp [isTerm_not_comment hterm]), hterm] at hst
      exact hst.2.2
    | rejectStop => simp [handleError] at he
  | next ctx t toks ps new toks1 ps1 ds toks' ps' hs hr ih =>
    have g1 := ((payErrors_rel o file).step env configDir ctx t toks ps).length_le
    rw [hs] at g1
    have g1 : ps.payErrors.length ≤ ps1.payErrors.length := g1
    have g2 := ((payErrors_rel o file).runOk hr).length_le
    have key : ∀ pre1, t :: toks = pre1 ++ toks1 → Statements true toks1 → net pre1 = 0 →
        (∀ body, Source o.parseComments ds body → Source o.parseComments (new ++ ds) (pre1 ++ body)) →
        ∃ pre, t :: toks = pre ++ toks' ∧ Statements true toks' ∧ Ends o.parseComments (new ++ ds) pre toks' := by
      intro pre1 h1 h2 h3 h4
      obtain ⟨pre2, i1, i2, i3⟩ := ih (by omega) h2
      refine ⟨pre1 ++ pre2, by rw [h1, i1, List.append_assoc], i2, ?_⟩
      rcases i3 with ⟨body, c, rfl, j1, j2, j3⟩ | ⟨j1, j2⟩
      · exact Or.inl ⟨pre1 ++ body, c, by simp, j1, h4 _ j2, by rw [net_append]; omega⟩
      · refine Or.inr ⟨j1, ?_⟩
        rw [net_append]
        rcases j2 with ⟨j2, j3⟩ | j2
        · exact Or.inl ⟨h4 _ j2, by omega⟩
        · exact Or.inr (by omega)
    have hc := step_cases env o configDir file ctx t toks ps
    rw [hs] at hc
    cases hc with
    | comment h1 h2 h3 =>
      obtain ⟨text, ht⟩ := isCommentTok_iff.mp h3
      have hopen : t.is c!"{" = false := by
        rw [is_mark_false]; intro hm; rw [CommentTok, Mark, hm.2] at ht; simp at ht
      refine key [t] rfl ?_ (by simp [net, hopen, h2]) ?_
      · unfold Statements at hst
        rwa [if_pos h3] at hst
      · intro body hb
        cases hpc : o.parseComments with
        | true =>
          rw [hpc] at hb
          exact .comment rfl ht ⟨rfl, rfl, rfl, by simp [commentStmt, ht.2], rfl⟩ hb
        | false =>
          rw [hpc] at hb
          exact .skip rfl ht hb
    | mapBad => simp [handleError] at g2 he; omega
    | mapOk args comments term rest m R hm ha =>
      obtain ⟨mid, texts, h1, h2, h3, h4, h5, h6, h7⟩ := R.words hst
      have hsemi : Mark term c!";" := by
        rcases h5 with h5 | h5
        · have := mapBody_term hm ha
          rw [h5.2] at this; simp at this
        · exact h5
      refine key (t :: (mid ++ [term])) (by rw [h1]; simp) h6 ?_ ?_
      · rw [← List.cons_append, net_append, h7, net_semi hsemi]; rfl
      · intro body hb
        have := Source.simple (pc := o.parseComments) (t := t) (mid := mid) (semi := term) (texts := texts)
          (d := { baseStmt o file t args with isMapBlockParameter := true }) (cs := [])
          ⟨h4, rfl, rfl, rfl, args, h2, by rw [if_neg (by simp)]; rfl⟩ rfl hsemi (by unfold Trailing; rw [if_neg (by simp)]) hb
        simpa using this
    | ignored args comments term rest R hm hig => rw [hi] at hig; cases hig
    | rejectSkip => simp [handleError] at g2 he; omega
    | reject => simp [handleError] at g2 he; omega
    | simple args comments term rest stmt stmt' ps' R h1 h2 h3 h4 h5 h6 =>
      obtain ⟨mid, texts, k1, k2, k3, k4, k5, k6, k7⟩ := R.words hst
      have hsemi : Mark term c!";" := by
        rw [is_mark_false] at h6; tauto
      refine key (t :: (mid ++ [term])) (by rw [k1]; simp) k6 ?_ ?_
      · rw [← List.cons_append, net_append, k7, net_semi hsemi]; rfl
      · intro body hb
        obtain ⟨e1, e2, e3, e4⟩ := stmt_heads k4 k2 h4 h5 none
        have e5 : { stmt' with block := none } = stmt' := noBlock e3
        rw [e5] at e1
        have := Source.simple (pc := o.parseComments) (t := t) (mid := mid) (semi := term) (texts := texts) (d := stmt')
          (cs := commentDirectives stmt'.line (if o.combineConfigs then file else []) comments) e1 e3 hsemi (by
            unfold Trailing
            rw [k3]
            cases o.parseComments with
            | true => simp only [e2, and_self, if_true]; exact commentDirectives_trailing
            | false => simp [commentDirectives]) hb
        simpa using this
  | block ctx t toks ps stmt comments toks1 ps1 b toks2 ps2 ds toks' ps' hs hr1 hr2 ih1 ih2 =>
    have g1 := ((payErrors_rel o file).step env configDir ctx t toks ps).length_le
    rw [hs] at g1
    have g1 : ps.payErrors.length ≤ ps1.payErrors.length := g1
    have g0 := ((payErrors_rel o file).enter stmt ctx ps1).length_le
    have g2 := ((payErrors_rel o file).runOk hr1).length_le
    have g3 := ((payErrors_rel o file).runOk hr2).length_le
    have hc := step_cases env o configDir file ctx t toks ps
    rw [hs] at hc
    cases hc with
    | block args comments term rest stmt0 stmt' ps' R h1 h2 h3 h4 h5 h6 =>
      obtain ⟨mid, texts, k1, k2, k3, k4, k5, k6, k7⟩ := R.words hst
      have hopen := is_mark.mp h6
      obtain ⟨pre1, a1, a2, a3⟩ := ih1 (by omega) k6
      obtain ⟨pre2, b1, b2, b3⟩ := ih2 (by omega) a2
      have hpre : net (t :: mid ++ [term]) = 1 := by rw [net_append, k7, net_open hopen]; rfl
      refine ⟨(t :: mid ++ [term]) ++ (pre1 ++ pre2), by rw [k1, a1, b1]; simp, b2, ?_⟩
      rcases a3 with ⟨body, c, rfl, j1, j2, j3⟩ | ⟨rfl, j⟩
      · obtain ⟨e1, e2, e3, e4⟩ := stmt_heads k4 k2 h4 h5 (some b)
        have hnet : net ((t :: mid ++ [term]) ++ (body ++ [c])) = 0 := by
          rw [net_append, hpre, net_append, j3, net_close j1]; rfl
        have hsrc : ∀ body', Source o.parseComments ds body' → Source o.parseComments
            ({ stmt with block := some b } :: (commentDirectives stmt.line (if o.combineConfigs then file else []) comments ++ ds))
            ((t :: mid ++ [term]) ++ (body ++ [c]) ++ body') := by
          intro body' hb
          have := Source.block (pc := o.parseComments) (t := t) (mid := mid) (opening := term) (closing := c) (texts := texts)
            (d := { stmt with block := some b })
            (cs := commentDirectives stmt.line (if o.combineConfigs then file else []) comments) e1 rfl hopen j2 j1 (by
              unfold Trailing
              rw [k3]
              cases o.parseComments with
              | true => simp only [e2, and_self, if_true]; exact commentDirectives_trailing
              | false => simp [commentDirectives]) hb
          simpa using this
        rw [← List.append_assoc]
        rcases b3 with ⟨body', c', rfl, l1, l2, l3⟩ | ⟨l1, l2⟩
        · exact Or.inl ⟨_, c', (List.append_assoc _ _ _).symm, l1, hsrc _ l2, by rw [net_append, hnet]; omega⟩
        · refine Or.inr ⟨l1, ?_⟩
          rw [net_append, hnet]
          rcases l2 with ⟨l2, l3⟩ | l2
          · exact Or.inl ⟨hsrc _ l2, by omega⟩
          · exact Or.inr (by omega)
      · have hnil := b1
        rw [List.nil_eq_append_iff] at hnil
        obtain ⟨rfl, rfl⟩ := hnil
        refine Or.inr ⟨rfl, Or.inr ?_⟩
        rw [net_append, hpre, List.append_nil]
        rcases j with ⟨-, j⟩ | j <;> omega

/-! ## The property -/

theorem lex_net {s : Str} (h : ∀ t ∈ lex s, t.error = none) : net (lex s) = 0 := by
  have hb := (C06_tokens_balanced s h).2
  revert hb
  generalize lex s = l
  have key : ∀ l : List Tok, net l =
      ((l.filterMap fun t => if t.quoted = false ∧ t.value = ['{'] then some '{'
        else if t.quoted = false ∧ t.value = ['}'] then some '}' else none).count '{' : Int) -
      ((l.filterMap fun t => if t.quoted = false ∧ t.value = ['{'] then some '{'
        else if t.quoted = false ∧ t.value = ['}'] then some '}' else none).count '}' : Int) := by
    intro l
    induction l with
    | nil => rfl
    | cons t ts ih =>
      simp only [net, ih, List.filterMap_cons]
      by_cases h1 : Mark t c!"{"
      · rw [if_pos (is_mark.mpr h1), if_pos (show t.quoted = false ∧ t.value = ['{'] from h1)]
        simp; omega
      · rw [if_neg (by rw [is_mark]; exact h1), if_neg (show ¬ (t.quoted = false ∧ t.value = ['{']) from h1)]
        by_cases h2 : Mark t c!"}"
        · rw [if_pos (is_mark.mpr h2), if_pos (show t.quoted = false ∧ t.value = ['}'] from h2)]
          simp; omega
        · rw [if_neg (by rw [is_mark]; exact h2), if_neg (show ¬ (t.quoted = false ∧ t.value = ['}']) from h2)]
          simp
  intro hb
  rw [key l, hb]; omega

/-- The configs of a run: the one of the file at the head of the worklist after `n` files is number `n`. -/
theorem FilesMore.drop {env : Env} {o : ParseOptions} {configDir : Str} {n : Nat} {ps ps1 : PS} (h : FilesMore env o configDir n ps ps1) :
    ∀ {cs ps'}, FilesOk env o configDir ps cs ps' → FilesOk env o configDir ps1 (cs.drop n) ps' := by
  induction h with
  | zero => exact fun h => h
  | ok n ps incl rest data ds toks' ps1 ps' hi ho hr hf ih =>
    intro cs ps2 h
    cases h with
    | nil _ h => rw [h] at hi; cases hi
    | ok _ _ _ _ _ _ _ _ _ hi' ho' hr' hf' =>
      rw [hi] at hi'; cases hi'; rw [ho] at ho'; cases ho'
      obtain ⟨-, -, rfl⟩ := hr.det hr'
      exact ih hf'
    | bad _ _ _ _ _ _ _ _ _ hi' ho' hr' =>
      rw [hi] at hi'; cases hi'; rw [ho] at ho'; cases ho'
      exact absurd hr' (fun h => hr.not_fail h)
  | bad n ps incl rest data e toks' ps1 ps' hi ho hr hs hf ih =>
    intro cs ps2 h
    cases h with
    | nil _ h => rw [h] at hi; cases hi
    | ok _ _ _ _ _ _ _ _ _ hi' ho' hr' =>
      rw [hi] at hi'; cases hi'; rw [ho] at ho'; cases ho'
      exact absurd hr (fun h => hr'.not_fail h)
    | bad _ _ _ _ _ _ _ _ _ hi' ho' hr' _ hf' =>
      rw [hi] at hi'; cases hi'; rw [ho] at ho'; cases ho'
      obtain ⟨he, -, rfl⟩ := hr.det hr'
      cases he
      exact ih hf'

/-- Every config was read from the contents of a file. -/
theorem FilesOk.parses {env : Env} {o : ParseOptions} {configDir : Str} {ps : PS} {cs : List Config} {ps' : PS} (h : FilesOk env o configDir ps cs ps') :
    ∀ n c, cs[n]? = some c → ∃ ps1 incl rest data, FilesMore env o configDir n ps ps1 ∧ ps1.includes = incl :: rest ∧ incl.path = c.file ∧
      env.openFile ps1.opens incl.path = .ok data := by
  induction h with
  | nil => intro n c h; simp at h
  | ok ps incl rest data ds toks' ps1 cs ps' hi ho hr hf ih =>
    intro n c h
    cases n with
    | zero => simp at h; subst h; exact ⟨ps, incl, rest, data, .zero _, hi, rfl, ho⟩
    | succ n =>
      simp at h
      obtain ⟨ps2, i, r, d, h1, h2⟩ := ih n c h
      exact ⟨ps2, i, r, d, .ok _ _ _ _ _ _ _ _ _ hi ho hr h1, h2⟩
  | bad ps incl rest data e toks' ps1 cs ps' hi ho hr hs hf ih =>
    intro n c h
    cases n with
    | zero => simp at h; subst h; exact ⟨ps, incl, rest, data, .zero _, hi, rfl, ho⟩
    | succ n =>
      simp at h
      obtain ⟨ps2, i, r, d, h1, h2⟩ := ih n c h
      exact ⟨ps2, i, r, d, .bad _ _ _ _ _ _ _ _ _ hi ho hr hs h1, h2⟩

/-- C28 (partial).  In a payload without errors, nothing being ignored, every config has a file contents it was read from, and if that starts with a word
and every statement in it is ended by `;` or a block, then the tokens of the contents are the source of the tree: the same names, arguments, comments and
blocks in the same order.  Missing: external lexers, files that start with `{` or `;`, comments within a parameter of a map-like block; for the latter
two it is false. -/
theorem C28_partial {env : Env} {fuel : Nat} {filename : Str} {o : ParseOptions} {p : Payload} (h : Parse env fuel filename o = .ok p)
    (hlex : o.lexers = []) (hi : o.ignoreDirectives = []) (hcomb : o.combineConfigs = false) (hs : p.status = c!"ok") {n : Nat} {c : Config}
    (hc : p.config[n]? = some c) :
    ∃ data, ParsesFile env o filename n c.file data ∧
      (StartsWithWord (lex data.runes) → StatementsEnd (lex data.runes) → Source o.parseComments c.parsed (lex data.runes)) := by
  obtain ⟨cs, ps', hok, -, hraw, -⟩ := Parse_ok h
  have hp := hraw hcomb
  have he : ps'.payErrors = [] := by
    rcases (C17_status h).1 with ⟨h1, -⟩ | ⟨-, h1⟩
    · rw [hs] at h1; simp at h1
    · rw [hp] at h1; exact h1
  have hcs : cs[n]? = some c := by rw [hp] at hc; exact hc
  obtain ⟨ps1, incl, rest, data, hm, hin, hfile, ho⟩ := hok.parses n c hcs
  refine ⟨data, ⟨ps1, incl, rest, hm, hin, hfile, ho⟩, fun hst hend => ?_⟩
  have hft : fileToks o data = lex data.runes := by unfold fileToks lex; rw [hlex]; rfl
  have hd := hm.drop hok
  have hne := (C31_partial h hlex hi hs ⟨ps1, incl, rest, hm, hin, hfile, ho⟩ (by
    intro t ht
    have hsplit : ∀ l : List Tok, (l.filter (!·.isCommentTok)).head? = some t →
        ∃ cs rest, l = cs ++ t :: rest ∧ ∀ c ∈ cs, ∃ text, CommentTok c text := by
      intro l
      induction l with
      | nil => intro h; cases h
      | cons x xs ih =>
        intro h
        by_cases hx : x.isCommentTok = true
        · rw [List.filter_cons, if_neg (by simp [hx])] at h
          obtain ⟨cs, r, h1, h2⟩ := ih h
          refine ⟨x :: cs, r, by rw [h1]; rfl, ?_⟩
          intro y hy
          rcases List.mem_cons.mp hy with rfl | hy
          exacts [isCommentTok_iff.mp hx, h2 y hy]
        · rw [List.filter_cons, if_pos (by simpa using hx)] at h
          cases h
          exact ⟨[], xs, rfl, by simp⟩
    obtain ⟨cs, r, h1, h2⟩ := hsplit _ ht
    have := hst cs t r h1 h2
    rw [is_mark_false]; tauto)).1
  have hdrop : cs.drop n = c :: cs.drop (n + 1) := by
    obtain ⟨hlt, hget⟩ := List.getElem?_eq_some_iff.mp hcs
    rw [List.drop_eq_getElem_cons hlt, hget]
  rw [hdrop] at hd
  have hstm : Statements true (lex data.runes) := ((lex_noDup _).start hst).statements (fun _ _ _ _ _ h => by cases h) hend
  generalize hx : c :: cs.drop (n + 1) = l at hd
  cases hd with
  | nil => cases hx
  | bad _ _ _ _ _ _ _ _ _ hi' ho' hr hs hf =>
    have := hf.errors_grow
    rw [he, List.prefix_nil] at this
    simp [handleError] at this
  | ok _ _ _ _ ds toks' ps1 _ _ hi' ho' hr hf =>
    cases hx
    rw [hin] at hi'; cases hi'; rw [ho] at ho'; cases ho'
    have g1 := hf.errors_grow
    rw [he, List.prefix_nil] at g1
    have g2 := (payErrors_rel o incl.path).runOk hr
    rw [g1, List.prefix_nil] at g2
    obtain ⟨pre, h1, h2, h3⟩ := hr.source hi (by rw [g1, g2]) (by rw [hft]; exact hstm)
    rw [hft] at h1
    rcases h3 with ⟨body, cl, rfl, k1, k2, k3⟩ | ⟨rfl, k⟩
    · have := lex_prefix _ _ _ h1
      rw [net_append, net_close k1] at this
      omega
    · rw [List.append_nil] at h1
      rw [← h1] at k
      rcases k with ⟨k, -⟩ | k
      · exact k
      · rw [lex_net hne] at k
        omega

/-- The hypotheses of `C28_partial` are met by a file with comments, an `if` and nested blocks. -/
example : ∃ c : Int → Str → Directive, Parse (exEnv [(c!"/e/n", c!"#1\nhttp{server #2\n{if ( a = b) {}}}")]) 2 c!"/e/n" { exOpts with parseComments := true } =
      .ok (okPayload [(c!"/e/n", [c 1 c!"1", blk c!"http" 2 [] [blk c!"server" 2 [] [blk c!"if" 3 [c!"a", c!"=", c!"b"] []], c 2 c!"2"]])]) :=
  ⟨fun n t => ⟨c!"#", n, [], [], none, none, some t, false⟩, by decide +kernel⟩

/-- C28 is false for a comment within a parameter of a map-like block: it is lost. -/
theorem C28_false_comment : ∃ (env : Env) (o : ParseOptions) (c : Config), o.lexers = [] ∧ o.ignoreDirectives = [] ∧ o.parseComments = true ∧
    Parse env 2 c!"/e/n" o = .ok { status := c!"ok", config := [c] } ∧ env.openFile 0 c!"/e/n" = .ok { runes := c!"z{map{a #x\nb;}}" } ∧
    (∃ t ∈ lex c!"z{map{a #x\nb;}}", CommentTok t c!"x") ∧ ∀ d, Within d c.parsed → d.comment = none := by
  refine ⟨exEnv [(c!"/e/n", c!"z{map{a #x\nb;}}")], { exOpts with parseComments := true },
    ⟨c!"/e/n", c!"ok", [], [blk c!"z" 1 [] [blk c!"map" 1 [] [param c!"a" 1 [c!"b"]]]]⟩,
    rfl, rfl, rfl, by decide +kernel, rfl, ⟨⟨c!"#x", 1, false, none⟩, by decide +kernel, rfl, rfl⟩, ?_⟩
  intro d h
  cases h with
  | here h => simp [blk] at h; subst h; rfl
  | deep hm hb h =>
    simp [blk] at hm; subst hm; cases hb
    cases h with
    | here h => simp [blk] at h; subst h; rfl
    | deep hm hb h =>
      simp [blk] at hm; subst hm; cases hb
      cases h with
      | here h => simp [param] at h; subst h; rfl
      | deep hm hb h => simp [param] at hm; subst hm; cases hb

/-- C28 is false for a file that starts with `{` (or `;`): here the directive `x` is lost. -/
theorem C28_false_brace : ∃ (env : Env) (o : ParseOptions) (c : Config), o.lexers = [] ∧ o.ignoreDirectives = [] ∧
    Parse env 2 c!"/e/n" o = .ok { status := c!"ok", config := [c] } ∧ env.openFile 0 c!"/e/n" = .ok { runes := c!"{a;}x;" } ∧
    StatementsEnd (lex c!"{a;}x;") ∧ (∃ t ∈ lex c!"{a;}x;", t.value = c!"x") ∧ ∀ d, Within d c.parsed → d.directive ≠ c!"x" ∧ c!"x" ∉ d.args := by
  have hl : lex c!"{a;}x;" = [⟨c!"{", 1, false, none⟩, ⟨c!"a", 1, false, none⟩, ⟨c!";", 1, false, none⟩, ⟨c!"}", 1, false, none⟩,
    ⟨c!"x", 1, false, none⟩, ⟨c!";", 1, false, none⟩] := by decide +kernel
  refine ⟨exEnv [(c!"/e/n", c!"{a;}x;")], {}, ⟨c!"/e/n", c!"ok", [], [dir c!"{" 1 [c!"a"]]⟩,
    rfl, rfl, by decide +kernel, rfl, ?_, ⟨⟨c!"x", 1, false, none⟩, by rw [hl]; simp, rfl⟩, ?_⟩
  · rw [hl]
    intro a t cs u b h hcs hu
    have hlen := congrArg List.length h
    have hcs' : cs = [] := by
      cases cs with
      | nil => rfl
      | cons c cs =>
        obtain ⟨text, hq, hv⟩ := hcs c (by simp)
        have hm : c ∈ a ++ t :: (c :: cs ++ u :: b) := by simp
        rw [← h] at hm
        simp at hm
        rcases hm with rfl | rfl | rfl | rfl | rfl | rfl <;> simp at hv
    subst hcs'
    simp only [List.nil_append] at h
    rcases a with _ | ⟨a1, _ | ⟨a2, _ | ⟨a3, _ | ⟨a4, _ | ⟨a5, _ | ⟨a6, a⟩⟩⟩⟩⟩⟩
    all_goals simp at h
    all_goals first
      | (obtain ⟨h1, h2, -⟩ := h; rw [← h2] at hu; simp [Mark] at hu)
      | (obtain ⟨-, h1, h2, -⟩ := h; rw [← h2] at hu; simp [Mark] at hu)
      | (obtain ⟨-, -, h1, h2, -⟩ := h; rw [← h1]; simp [Mark])
      | (obtain ⟨-, -, -, h1, h2, -⟩ := h; rw [← h2] at hu; simp [Mark] at hu)
      | (obtain ⟨-, -, -, -, h1, h2, -⟩ := h; rw [← h2] at hu; simp [Mark] at hu)
  · intro d h
    cases h with
    | here h => simp [dir] at h; subst h; simp
    | deep hm hb h => simp [dir] at hm; subst hm; cases hb

end Verif
