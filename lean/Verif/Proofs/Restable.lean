import Verif.Props.Rebuild
/-!
# Building a parsed file and parsing it again
-/
namespace Verif
open Spec

/-! ## Comments come from comment tokens -/

theorem consume_suffix (toks : List Tok) : ∀ depth, consume depth toks <:+ toks := by
  induction toks with
  | nil => intro _; exact List.suffix_refl _
  | cons t toks ih =>
    intro depth
    unfold consume
    split
    · cases depth with
      | zero => exact List.suffix_cons ..
      | succ d => exact (ih d).trans (List.suffix_cons ..)
    · split
      · exact (ih _).trans (List.suffix_cons ..)
      · exact (ih _).trans (List.suffix_cons ..)

theorem skipBlock_suffix (term : Tok) (toks : List Tok) : skipBlock term toks <:+ toks := by
  unfold skipBlock
  split
  · exact consume_suffix _ _
  · exact List.suffix_refl _

/-- What a round leaves is the end of what it got, and the texts it keeps for comments are those of comment tokens. -/
theorem Reads.suffix {o : ParseOptions} {t : Tok} {toks : List Tok} {args comments : List Str} {term : Tok} {rest : List Tok} (R : Reads o t toks args comments term rest) :
    rest <:+ toks ∧ ∀ text ∈ comments, ∃ t ∈ toks, CommentTok t text := by
  obtain ⟨mid, as, texts, h1, h2, h3, h4, -⟩ := readArgs_words R.read
  refine ⟨⟨mid ++ [term], by rw [h1]; simp⟩, ?_⟩
  intro text ht
  have hx : text ∈ texts := by
    rw [h4, List.nil_append] at ht
    split at ht
    · exact ht
    · cases ht
  have : ∀ {mid as texts}, Words mid as texts → text ∈ texts → ∃ t ∈ mid, CommentTok t text := by
    intro mid as texts h
    induction h with
    | nil => intro h; cases h
    | word _ _ ih => intro h; obtain ⟨t, h1, h2⟩ := ih h; exact ⟨t, List.mem_cons_of_mem _ h1, h2⟩
    | comment hc _ ih =>
      intro h
      rcases List.mem_cons.mp h with rfl | h
      · exact ⟨_, List.mem_cons_self .., hc⟩
      · obtain ⟨t, h1, h2⟩ := ih h; exact ⟨t, List.mem_cons_of_mem _ h1, h2⟩
  obtain ⟨t, h5, h6⟩ := this h2 hx
  exact ⟨t, by rw [h1]; exact List.mem_append_left _ h5, h6⟩

/-- The comments in `ds` come from tokens of `toks`. -/
def CommentsFrom (toks : List Tok) (ds : List Directive) : Prop :=
  ∀ d, Within d ds → ∀ text, d.comment = some text → ∃ t ∈ toks, CommentTok t text

theorem CommentsFrom.mono {toks toks' : List Tok} {ds : List Directive} (h : CommentsFrom toks ds) (hs : toks ⊆ toks') : CommentsFrom toks' ds := by
  intro d hd text ht
  obtain ⟨t, h1, h2⟩ := h d hd text ht
  exact ⟨t, hs h1, h2⟩

theorem CommentsFrom.append {toks : List Tok} {a b : List Directive} (ha : CommentsFrom toks a) (hb : CommentsFrom toks b) : CommentsFrom toks (a ++ b) := by
  intro d hd
  rcases within_append.mp hd with h | h
  · exact ha d h
  · exact hb d h

theorem commentsFrom_flat {toks : List Tok} {ds : List Directive} (h : ∀ d ∈ ds, d.block = none ∧ ∀ text, d.comment = some text → ∃ t ∈ toks, CommentTok t text) :
    CommentsFrom toks ds := by
  intro d hd
  cases hd with
  | here hm => exact (h d hm).2
  | deep hm hb _ => rw [(h _ hm).1] at hb; cases hb

theorem commentsFrom_commentDirectives {toks : List Tok} {line : Int} {file : Str} {comments : List Str} (h : ∀ text ∈ comments, ∃ t ∈ toks, CommentTok t text) :
    CommentsFrom toks (commentDirectives line file comments) := by
  refine commentsFrom_flat ?_
  intro d hd
  unfold commentDirectives at hd
  obtain ⟨x, hx, rfl⟩ := List.mem_map.mp hd
  exact ⟨rfl, fun text e => by cases e; exact h x hx⟩

theorem stmt_noComment {env : Env} {o : ParseOptions} {configDir file : Str} {ctx : Ctx} {t : Tok} {args : List Str} {stmt stmt' : Directive} {ps ps' : PS}
    (h4 : prepIf (baseStmt o file t args) = some stmt) (h5 : doInclude env o configDir file ctx stmt ps = (.ok stmt', ps')) : stmt'.comment = none ∧ stmt'.block = none := by
  have h1 := prepIf_some h4
  have h2 : stmt.includes = none := by rw [h1]; rfl
  have h3 := (doInclude_ok h2 h5).1
  rw [h3, h1]
  exact ⟨rfl, rfl⟩

theorem RunOk.commentsFrom {env : Env} {o : ParseOptions} {configDir file : Str} {ctx : Ctx} {toks : List Tok} {ps : PS}
    {ds : List Directive} {toks' : List Tok} {ps' : PS} (h : RunOk env o configDir file ctx toks ps ds toks' ps') : CommentsFrom toks ds ∧ toks' <:+ toks := by
  induction h with
  | eof => exact ⟨fun d hd => absurd hd within_nil, List.suffix_refl _⟩
  | stop ctx t toks ps toks' ps' hs =>
    refine ⟨fun d hd => absurd hd within_nil, ?_⟩
    have hr := step_cases env o configDir file ctx t toks ps
    rw [hs] at hr
    cases hr with
    | close => exact List.suffix_cons ..
    | rejectStop _ _ _ _ _ R => exact R.suffix.1.trans (List.suffix_cons ..)
  | next ctx t toks ps new toks1 ps1 ds toks' ps' hs _ ih =>
    obtain ⟨i1, i2⟩ := ih
    have hr := step_cases env o configDir file ctx t toks ps
    rw [hs] at hr
    have fin : toks1 <:+ toks → CommentsFrom (t :: toks) new → CommentsFrom (t :: toks) (new ++ ds) ∧ toks' <:+ t :: toks := by
      intro h1 h2
      have h3 := h1.trans (List.suffix_cons t toks)
      exact ⟨h2.append (i1.mono h3.subset), i2.trans h3⟩
    have hnil : CommentsFrom (t :: toks) [] := fun d hd => absurd hd within_nil
    cases hr with
    | comment _ _ hc =>
      refine fin (List.suffix_refl _) ?_
      split
      · refine commentsFrom_flat ?_
        intro d hd
        rw [List.mem_singleton] at hd
        subst hd
        refine ⟨rfl, fun text e => ?_⟩
        obtain ⟨text', ht⟩ := isCommentTok_iff.mp hc
        refine ⟨t, by simp, ?_⟩
        have := ht.2
        simp only [commentStmt, this, List.drop_succ_cons, List.drop_zero, Option.some.injEq] at e
        exact e ▸ ht
      · exact hnil
    | mapBad _ _ _ _ _ _ R => exact fin ((skipBlock_suffix _ _).trans R.suffix.1) hnil
    | mapOk _ _ _ _ _ R =>
      refine fin R.suffix.1 (commentsFrom_flat ?_)
      intro d hd
      rw [List.mem_singleton] at hd
      subst hd
      exact ⟨rfl, fun text e => (by cases e)⟩
    | ignored _ _ _ _ R => exact fin ((skipBlock_suffix _ _).trans R.suffix.1) hnil
    | rejectSkip _ _ _ _ _ R => exact fin ((consume_suffix _ _).trans R.suffix.1) hnil
    | reject _ _ _ _ _ R => exact fin R.suffix.1 hnil
    | simple _ _ _ _ _ _ _ R _ _ _ h4 h5 =>
      refine fin R.suffix.1 (CommentsFrom.append (commentsFrom_flat ?_) (commentsFrom_commentDirectives ?_))
      · intro d hd
        rw [List.mem_singleton] at hd
        subst hd
        obtain ⟨h6, h7⟩ := stmt_noComment h4 h5
        exact ⟨h7, fun text e => by rw [h6] at e; cases e⟩
      · intro text ht
        obtain ⟨x, h1, h2⟩ := R.suffix.2 text ht
        exact ⟨x, List.mem_cons_of_mem _ h1, h2⟩
  | block ctx t toks ps stmt comments toks1 ps1 b toks2 ps2 ds toks' ps' hs _ _ ihb ih =>
    obtain ⟨b1, b2⟩ := ihb
    obtain ⟨i1, i2⟩ := ih
    have hr := step_cases env o configDir file ctx t toks ps
    rw [hs] at hr
    cases hr with
    | block _ _ _ _ _ _ _ R _ _ _ h4 h5 =>
      have s1 := R.suffix.1.trans (List.suffix_cons t toks)
      have s2 := b2.trans s1
      refine ⟨?_, i2.trans s2⟩
      intro d hd
      rcases within_cons.mp hd with rfl | ⟨b', hb, hd⟩ | hd
      · intro text e
        have e : stmt.comment = some text := e
        rw [(stmt_noComment h4 h5).1] at e; cases e
      · cases hb
        exact (b1.mono s1.subset) d hd
      · refine CommentsFrom.append (commentsFrom_commentDirectives ?_) (i1.mono s2.subset) d hd
        intro text ht
        obtain ⟨x, h1, h2⟩ := R.suffix.2 text ht
        exact ⟨x, List.mem_cons_of_mem _ h1, h2⟩

/-- The lines of the directives in `ds` are lines of tokens of `toks`. -/
def LinesFrom (toks : List Tok) (ds : List Directive) : Prop := ∀ d, Within d ds → ∃ t ∈ toks, d.line = t.line

theorem LinesFrom.mono {toks toks' : List Tok} {ds : List Directive} (h : LinesFrom toks ds) (hs : toks ⊆ toks') : LinesFrom toks' ds := by
  intro d hd
  obtain ⟨t, h1, h2⟩ := h d hd
  exact ⟨t, hs h1, h2⟩

theorem LinesFrom.append {toks : List Tok} {a b : List Directive} (ha : LinesFrom toks a) (hb : LinesFrom toks b) : LinesFrom toks (a ++ b) := by
  intro d hd
  rcases within_append.mp hd with h | h
  · exact ha d h
  · exact hb d h

theorem linesFrom_flat {toks : List Tok} {ds : List Directive} (h : ∀ d ∈ ds, d.block = none ∧ ∃ t ∈ toks, d.line = t.line) : LinesFrom toks ds := by
  intro d hd
  cases hd with
  | here hm => exact (h d hm).2
  | deep hm hb _ => rw [(h _ hm).1] at hb; cases hb

theorem linesFrom_commentDirectives {toks : List Tok} {line : Int} {file : Str} {comments : List Str} (h : ∃ t ∈ toks, line = t.line) :
    LinesFrom toks (commentDirectives line file comments) := by
  refine linesFrom_flat ?_
  intro d hd
  unfold commentDirectives at hd
  obtain ⟨x, hx, rfl⟩ := List.mem_map.mp hd
  exact ⟨rfl, h⟩

theorem stmt_line {env : Env} {o : ParseOptions} {configDir file : Str} {ctx : Ctx} {t : Tok} {args : List Str} {stmt stmt' : Directive} {ps ps' : PS}
    (h4 : prepIf (baseStmt o file t args) = some stmt) (h5 : doInclude env o configDir file ctx stmt ps = (.ok stmt', ps')) : stmt'.line = t.line ∧ stmt.line = t.line := by
  have h1 := prepIf_some h4
  have h2 : stmt.includes = none := by rw [h1]; rfl
  have h3 := (doInclude_ok h2 h5).1
  have h4 : stmt.line = t.line := by rw [h1]; rfl
  refine ⟨?_, h4⟩
  rw [h3]
  exact h4

theorem RunOk.linesFrom {env : Env} {o : ParseOptions} {configDir file : Str} {ctx : Ctx} {toks : List Tok} {ps : PS}
    {ds : List Directive} {toks' : List Tok} {ps' : PS} (h : RunOk env o configDir file ctx toks ps ds toks' ps') : LinesFrom toks ds := by
  induction h with
  | eof => exact fun d hd => absurd hd within_nil
  | stop ctx t toks ps toks' ps' hs => exact fun d hd => absurd hd within_nil
  | next ctx t toks ps new toks1 ps1 ds toks' ps' hs hrest ih =>
    have hr := step_cases env o configDir file ctx t toks ps
    rw [hs] at hr
    have fin : toks1 <:+ toks → LinesFrom (t :: toks) new → LinesFrom (t :: toks) (new ++ ds) := by
      intro h1 h2
      exact h2.append (ih.mono (h1.trans (List.suffix_cons t toks)).subset)
    have hnil : LinesFrom (t :: toks) [] := fun d hd => absurd hd within_nil
    cases hr with
    | comment _ _ hc =>
      refine fin (List.suffix_refl _) ?_
      split
      · refine linesFrom_flat ?_
        intro d hd
        rw [List.mem_singleton] at hd
        subst hd
        exact ⟨rfl, t, by simp, rfl⟩
      · exact hnil
    | mapBad _ _ _ _ _ _ R => exact fin ((skipBlock_suffix _ _).trans R.suffix.1) hnil
    | mapOk _ _ _ _ _ R =>
      refine fin R.suffix.1 (linesFrom_flat ?_)
      intro d hd
      rw [List.mem_singleton] at hd
      subst hd
      exact ⟨rfl, t, by simp, rfl⟩
    | ignored _ _ _ _ R => exact fin ((skipBlock_suffix _ _).trans R.suffix.1) hnil
    | rejectSkip _ _ _ _ _ R => exact fin ((consume_suffix _ _).trans R.suffix.1) hnil
    | reject _ _ _ _ _ R => exact fin R.suffix.1 hnil
    | simple _ _ _ _ _ _ _ R _ _ _ h4 h5 =>
      refine fin R.suffix.1 (LinesFrom.append (linesFrom_flat ?_) (linesFrom_commentDirectives ⟨t, by simp, (stmt_line h4 h5).1⟩))
      intro d hd
      rw [List.mem_singleton] at hd
      subst hd
      exact ⟨(stmt_noComment h4 h5).2, t, by simp, (stmt_line h4 h5).1⟩
  | block ctx t toks ps stmt comments toks1 ps1 b toks2 ps2 ds toks' ps' hs hb _ ihb ih =>
    have b2 := hb.commentsFrom.2
    have hr := step_cases env o configDir file ctx t toks ps
    rw [hs] at hr
    cases hr with
    | block _ _ _ _ _ _ _ R _ _ _ h4 h5 =>
      have s1 := R.suffix.1.trans (List.suffix_cons t toks)
      have s2 := b2.trans s1
      intro d hd
      rcases within_cons.mp hd with rfl | ⟨b', hb, hd⟩ | hd
      · exact ⟨t, by simp, (stmt_line h4 h5).1⟩
      · cases hb
        exact (ihb.mono s1.subset) d hd
      · exact LinesFrom.append (linesFrom_commentDirectives ⟨t, by simp, (stmt_line h4 h5).1⟩) (ih.mono s2.subset) d hd

/-- Comment tokens of the lexer are comments as they are read. -/
theorem specToks_commentText {items : List Item} (hw : WF items) : ∀ {line start depth dup g}, ∀ t ∈ specToks line start depth dup g items,
    ∀ text, CommentTok t text → CommentText text := by
  have errTok : ∀ {line e} (t : Tok), t ∈ [(⟨[], line, false, some e⟩ : Tok)] → ∀ text, CommentTok t text → CommentText text := by
    intro line e t ht text hc
    rw [List.mem_singleton] at ht
    subst ht
    cases hc.2
  induction items with
  | nil =>
    intro line start depth dup g
    simp only [specToks]
    split
    · exact errTok
    · intro t ht; cases ht
  | cons i rest ih =>
    intro line start depth dup g
    cases i with
    | space c => simp only [specToks]; exact ih hw.2.2
    | word us =>
      simp only [specToks]
      intro t ht text hc
      rcases List.mem_cons.mp ht with rfl | ht
      · have := (word_tok hw.2.1 (wordLine line us)).2.2.2
        rw [isCommentTok_iff.mpr ⟨text, hc⟩] at this; cases this
      · exact ih hw.2.2.2 t ht text hc
    | quoted q us closed =>
      simp only [specToks]
      intro t ht text hc
      rcases List.mem_append.mp ht with ht | ht
      · split at ht
        · rw [List.mem_singleton] at ht
          subst ht
          cases hc.1
        · cases ht
      · exact ih hw.2.2.2 t ht text hc
    | comment us e =>
      simp only [specToks]
      intro t ht text hc
      rcases List.mem_cons.mp ht with rfl | ht
      · have := hc.2
        simp only [List.cons.injEq, true_and] at this
        subst this
        exact ⟨us, rfl, hw.1⟩
      · exact ih hw.2.2 t ht text hc
    | special c =>
      simp only [specToks]
      split
      · exact errTok
      · split
        · exact errTok
        · intro t ht text hc
          rcases List.mem_cons.mp ht with rfl | ht
          · have hsp := hw.1
            have := hc.2
            simp only [List.cons.injEq] at this
            rw [this.1] at hsp
            exact absurd hsp (by decide)
          · exact ih hw.2 t ht text hc

theorem lex_commentText {s : Str} {t : Tok} (h : t ∈ lex s) {text : Str} (hc : CommentTok t text) : CommentText text := by
  obtain ⟨items, d, e, w, hd, hl⟩ := lex_cover s
  rw [hl] at h
  exact specToks_commentText w t h text hc

/-! ## Acceptance -/

theorem closing_last (quoted : Str → Bool) (as : List Str) : ∀ q v, (∃ r, (closing quoted q v as).getLast? = some (r ++ [')'])) ∧
    ∃ x xs, closing quoted q v as = x :: xs ∧ (∃ r, x = v ++ r) ∧ v.length + 1 ≤ (closing quoted q v as).flatten.length := by
  induction as with
  | nil =>
    intro q v
    unfold closing
    cases q with
    | true => exact ⟨⟨[], rfl⟩, v, [c!")"], rfl, ⟨[], by simp⟩, by simp⟩
    | false => exact ⟨⟨v, rfl⟩, v ++ c!")", [], rfl, ⟨_, rfl⟩, by simp⟩
  | cons a as ih =>
    intro q v
    unfold closing
    obtain ⟨⟨r, h1⟩, x, xs, h2, h3, h4⟩ := ih (quoted a) a
    refine ⟨⟨r, ?_⟩, v, _, rfl, ⟨[], by simp⟩, ?_⟩
    · rw [h2] at h1 ⊢
      rw [List.getLast?_cons_cons, h1]
    · rw [List.flatten_cons, List.length_append]
      omega

theorem ifTokens_inParens {quoted : Str → Bool} {a : Str} {as : List Str} (ha : a ≠ []) : InParens (ifTokens quoted (a :: as)) := by
  show InParens (closing quoted false ('(' :: a) as)
  obtain ⟨⟨r, h1⟩, x, xs, h2, ⟨r', h3⟩, h4⟩ := closing_last quoted as false ('(' :: a)
  refine ⟨x, r ++ [')'], by rw [h2]; rfl, h1, ⟨a ++ r', by rw [h3]; rfl⟩, ⟨r, rfl⟩, Or.inr ?_⟩
  cases a with
  | nil => exact absurd rfl ha
  | cons c a =>
    simp only [List.length_cons] at h4
    omega

theorem ifTokens_length {quoted : Str → Bool} {as : List Str} : 1 ≤ (ifTokens quoted as).length := by
  cases as with
  | nil => simp [ifTokens]
  | cons a as =>
    obtain ⟨-, x, xs, h2, -⟩ := closing_last quoted as false ('(' :: a)
    show 1 ≤ (closing quoted false ('(' :: a) as).length
    rw [h2]; simp

/-- A directive that was accepted is accepted again with the arguments as they are built. -/
theorem accepted_again {o : ParseOptions} {c : List Str} {file : Str} {d : Directive} {args : List Str} {term : Str} {quoted : Str → Bool}
    (h1 : CheckedArgs d args) (h2 : term = c!";" ∨ term = c!"{" ∨ term = c!"}") (h3 : term = c!"{" ↔ d.block ≠ none)
    (h : analyze file ⟨d.directive, d.line, args, d.file, none, none, none, false⟩ term c o = none)
    (hmask : ∀ m, HasMask (sources o) c!"if" m → m.testBit 11 = true ∨ m.testBit 12 = true)
    (hif : d.directive = c!"if" → ∃ a as, d.args = a :: as ∧ a ≠ []) :
    analyze d.file ⟨d.directive, d.line, rawArgs quoted d, d.file, none, none, none, false⟩ (termOf d) c o = none := by
  obtain ⟨bit, hb⟩ := lookup_bit c
  rw [analyze_iff _ _ _ _ _ bit hb] at h ⊢
  refine ⟨h.1, fun b e hk => ?_⟩
  obtain ⟨hc, ha⟩ := h.2 b e hk
  refine ⟨hc, ?_⟩
  rcases ha with ha | ⟨m, m1, m2, m3, m4, m5⟩
  · exact Or.inl ha
  · refine Or.inr ⟨m, m1, m2, ?_⟩
    have hterm : term = termOf d := by
      unfold termOf
      by_cases hbn : d.block = none
      · rw [if_pos hbn]
        rcases h2 with h2 | h2 | h2
        · exact h2
        · exact absurd hbn (h3.mp h2)
        · rw [h2] at m4
          split at m4 <;> cases m4
      · rw [if_neg hbn]; exact h3.mpr hbn
    unfold rawArgs
    unfold CheckedArgs at h1
    split
    · rename_i hn
      obtain ⟨a, as, e1, e2⟩ := hif hn
      refine ⟨fun _ => ?_, by rw [← hterm]; exact m4, ?_⟩
      · show InParens (ifTokens quoted d.args)
        rw [e1]; exact ifTokens_inParens e2
      · have m1 : HasMask (sources o) c!"if" m := by rw [← hn]; exact m1
        rcases hmask m m1 with h | h
        · exact Or.inr (Or.inr (Or.inl h))
        · exact Or.inr (Or.inr (Or.inr (Or.inl ⟨h, ifTokens_length⟩)))
    · rename_i hn
      rw [if_neg hn] at h1
      rw [h1]
      exact ⟨m3, by rw [← hterm]; exact m4, m5⟩

end Verif
