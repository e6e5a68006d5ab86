import Verif.Props.Restable
/-!
# The tokens of the texts that are written to files
-/
namespace Verif
open Spec

/-! ## One more line feed -/

theorem filePieces_nl_toks {hd : Str → List Str → List Item} {mg : Nat → Str} (hm : MarginOk mg) {ds : List Directive} (ht : TreeOk hd ds) (ha : CommentsApart ds) :
    PiecesOk (filePieces hd ds ++ [.nl 0]) ∧ Toks hd ds (toksOf (toItems mg (filePieces hd ds ++ [.nl 0]))) := by
  have hf : Flush [Piece.nl 0] := Or.inr ⟨0, [], rfl⟩
  have hok := pieces_ok ds 0 0 [.nl 0] ht ha hf trivial
  unfold toksOf
  rcases filePieces_cases hd ds with ⟨e, -⟩ | ⟨e, -⟩
  · obtain ⟨toks, l, s, dup, h1, h2⟩ := pieces_toks hm ds 0 0 [.nl 0] ht ha hf 1 1 0 false
    rw [e] at h2 hok
    refine ⟨hok, ?_⟩
    rw [h2, specToks_nl hm]; simpa [toItems, specToks] using h1
  · obtain ⟨toks, l, s, dup, h1, h2⟩ := pieces_toks hm ds 0 0 [.nl 0] ht ha hf 0 1 0 false
    rw [e] at h2 hok
    refine ⟨hok, ?_⟩
    rw [List.cons_append, specToks_nl hm, show (0 : Int) + 1 = 1 from rfl] at h2
    rw [h2, specToks_nl hm]; simpa [toItems, specToks] using h1

theorem margins_zero (indent : Nat) (tabs : Bool) : margins indent tabs 0 = [] := by
  unfold margins; cases tabs <;> simp

theorem header_pieces {mg : Nat → Str} (hm : MarginOk mg) {ps : List Piece} (hps : PiecesOk ps) (hne : ∀ t ∈ toksOf (toItems mg ps), t.error = none) :
    lex (header ++ ptext mg ps) = headerToks ++ (toksOf (toItems mg ps)).map (Tok.down 4) := by
  rw [← toItems_text _ _ _ (Nat.le_refl _) hps, ← headerItems_text, ← List.append_assoc,
    ← unlex_append, lex_items (headerItems_wf (toItems_wf hm _ _ (Nat.le_refl _) hps)) (leftover_dangling _), headerItems_toks]
  congr 1
  have := specToks_down 4 _ 1 1 0 false false hne
  rw [toksOf, ← this, specToks_start _ 5 3 5]
  rfl

theorem header_toks {hd : Str → List Str → List Item} {o : BuildOptions} (ho : o.header = true) {ds : List Directive} {toks : List Tok} (ht : Toks hd ds toks) :
    Toks hd (headerDirs o ++ ds) (headerToks ++ toks.map (Tok.down 4)) := by
  unfold headerDirs
  rw [if_pos ho]
  have hc : ∀ t : Str, IsComment (commentDir t) := fun t => ⟨rfl, by simp [commentDir]⟩
  exact Toks.comment (line := 1) (hc _) (Toks.comment (line := 2) (hc _) (Toks.comment (line := 3) (hc _) (ht.down 4)))

/-- The tokens of the built text with one more line feed. -/
theorem fullText_nl_toks {isPrint : Char → Bool} {o : BuildOptions} {cfg : Config} (h : Readable isPrint cfg.parsed) (ha : CommentsApart cfg.parsed)
    (hb : NoBuilder isPrint o cfg.parsed) : Toks (heads isPrint) (headerDirs o ++ cfg.parsed) (lex (fullText isPrint o cfg ++ ['\n'])) := by
  have hl := h.lexable
  have hm := margins_ok (indentOf o) o.tabs
  obtain ⟨h1, h2⟩ := filePieces_nl_toks hm hl.treeOk ha
  have e : bodyText isPrint o cfg.parsed ++ ['\n'] = ptext (margins (indentOf o) o.tabs) (filePieces (heads isPrint) cfg.parsed ++ [.nl 0]) := by
    rw [bodyText_eq hl hb, linesText, ← filePieces_text _ (heads isPrint) _ _ _ hl.text, ptext_append]
    simp [ptext, margins_zero]
  unfold fullText
  rw [List.append_assoc, e]
  cases hh : o.header with
  | false =>
    unfold headerDirs
    rw [hh]
    simp only [Bool.false_eq_true, if_false, List.nil_append]
    rw [lex_pieces hm h1]; exact h2
  | true =>
    rw [if_pos rfl, header_pieces hm h1 h2.noError]
    exact header_toks hh h2

/-! ## The trimmed text -/

/-- The tree does not end in a comment with blanks at its end. -/
def NoBlankEnd (ds : List Directive) : Prop :=
  ∀ a d, ds = a ++ [d] → IsComment d → ∀ c, (d.comment.getD []).getLast? = some c → isSpaceRune c = false

theorem pieces_last {isPrint : Char → Bool} {mg : Nat → Str} : ∀ (ds : List Directive) (last : Int), NoBlankEnd ds →
    ∀ c, (ptext mg (pieces (heads isPrint) 0 last ds)).getLast? = some c → isSpaceRune c = false := by
  intro ds
  induction ds with
  | nil => intro last _ c hc; simp [pieces, ptext] at hc
  | cons d ds ih =>
    intro last h c hc
    have htail : NoBlankEnd ds := fun a x e => h (d :: a) x (by rw [e]; rfl)
    have hne : ∀ (last : Int) (x : Directive) (xs : List Directive), (ptext mg (pieces (heads isPrint) 0 last (x :: xs))).getLast? ≠ none := by
      intro last x xs hn
      rw [List.getLast?_eq_none_iff, pieces] at hn
      split at hn <;> simp [ptext, unlex, Item.text] at hn
    have hend : ds = [] → IsComment d → ∀ x, ('#' :: d.comment.getD []).getLast? = some x → isSpaceRune x = false := by
      rintro rfl hic x hx
      cases hd : d.comment.getD [] with
      | nil => rw [hd] at hx; cases hx; rfl
      | cons y ys =>
        rw [hd, List.getLast?_cons_cons] at hx
        exact h [] d rfl hic x (by rw [hd]; exact hx)
    rw [pieces] at hc
    by_cases hon : CommentOn d last
    · rw [if_pos hon, ptext, ptext, List.getLast?_append, List.getLast?_append] at hc
      cases ds with
      | nil =>
        rw [show (ptext mg (pieces (heads isPrint) 0 last [])).getLast? = none by simp [pieces, ptext], Option.none_or] at hc
        cases hx : ('#' :: d.comment.getD []).getLast? with
        | none => simp at hx
        | some x => rw [hx] at hc; simp at hc; subst hc; exact hend rfl ⟨hon.1, hon.2.1⟩ x hx
      | cons y ys =>
        cases ht : (ptext mg (pieces (heads isPrint) 0 last (y :: ys))).getLast? with
        | some x => rw [ht] at hc; simp at hc; subst hc; exact ih last htail x ht
        | none => exact absurd ht (hne _ _ _)
    · rw [if_neg hon, ptext, ptext_append, ← List.append_assoc, List.getLast?_append] at hc
      cases ds with
      | cons y ys =>
        cases ht : (ptext mg (pieces (heads isPrint) 0 d.line (y :: ys))).getLast? with
        | some x => rw [ht] at hc; simp at hc; subst hc; exact ih d.line htail x ht
        | none => exact absurd ht (hne _ _ _)
      | nil =>
        rw [show (ptext mg (pieces (heads isPrint) 0 d.line [])).getLast? = none by simp [pieces, ptext], Option.none_or, List.getLast?_append] at hc
        by_cases hic : IsComment d
        · rw [piecesDir_comment hic, ptext, ptext, List.append_nil] at hc
          cases hx : ('#' :: d.comment.getD []).getLast? with
          | none => simp at hx
          | some x => rw [hx] at hc; simp at hc; subst hc; exact hend rfl hic x hx
        · rw [piecesDir_other hic] at hc
          cases hb : d.block with
          | none =>
            rw [hb, piecesBlock, ptext, ptext, unlex_append, List.append_nil] at hc
            simp [unlex, Item.text] at hc
            subst hc; decide
          | some b =>
            have e : ∀ head : List Item, ptext mg (.code head :: (pieces (heads isPrint) (0 + 1) d.line b ++ [.nl 0, .code [.special '}']])) =
                (unlex head ++ (ptext mg (pieces (heads isPrint) (0 + 1) d.line b) ++ ('\n' :: mg 0))) ++ ['}'] := by
              intro head; simp [ptext, ptext_append, unlex, Item.text]
            rw [hb, piecesBlock, e, List.getLast?_append] at hc
            simp at hc
            subst hc; decide

/-- The last character of the text of a tree is no white space. -/
theorem bodyText_last {isPrint : Char → Bool} {o : BuildOptions} {ds : List Directive} (h : Lexable isPrint ds) (hb : NoBuilder isPrint o ds) (he : NoBlankEnd ds) :
    (ds ≠ [] → bodyText isPrint o ds ≠ []) ∧ ∀ c, (bodyText isPrint o ds).getLast? = some c → isSpaceRune c = false := by
  rw [bodyText_eq h hb, linesText, ← filePieces_text _ (heads isPrint) _ _ _ h.text]
  have hl := pieces_last (isPrint := isPrint) (mg := margins (indentOf o) o.tabs) ds 0 he
  rcases filePieces_cases (heads isPrint) ds with ⟨e, h1⟩ | ⟨e, d, r, rfl, h2⟩
  · rw [← e]
    refine ⟨fun hn => ?_, hl⟩
    rcases h1 with h1 | ⟨d, r, rfl, hc⟩
    · exact absurd h1 hn
    · rw [pieces, if_pos hc]; simp [ptext]
  · have e2 := e
    rw [pieces, if_neg h2] at e2
    have hne : ptext (margins (indentOf o) o.tabs) (filePieces (heads isPrint) (d :: r)) ≠ [] := by
      rw [← (List.cons.inj e2).2, ptext_append]
      by_cases hic : IsComment d
      · rw [piecesDir_comment hic]; simp [ptext]
      · rw [piecesDir_other hic]
        cases d.block <;> simp [piecesBlock, ptext, unlex, Item.text]
    refine ⟨fun _ => hne, fun c hc => hl c ?_⟩
    rw [e, ptext, margins_zero, List.getLast?_append, hc]
    rfl

theorem Trimmed.self {s t : Str} (h : Trimmed s t) (hs : ∀ c, s.getLast? = some c → isSpaceRune c = false) : t = s := by
  obtain ⟨⟨w, e, hw⟩, -⟩ := h
  cases hl : w.getLast? with
  | none => rw [List.getLast?_eq_none_iff] at hl; rw [e, hl, List.append_nil]
  | some c =>
    have h1 := hw c (List.mem_of_getLast? hl)
    rw [hs c (by rw [e, List.getLast?_append, hl]; rfl)] at h1
    cases h1

theorem Trimmed.unique {s t t' : Str} (h : Trimmed s t) (h' : Trimmed s t') : t = t' := by
  obtain ⟨⟨w, e, hw⟩, hl⟩ := h
  obtain ⟨⟨w', e', hw'⟩, hl'⟩ := h'
  have key : ∀ {t t' w w' : Str}, t ++ w = t' ++ w' → (∀ c ∈ w', isSpaceRune c = true) → (∀ c, t.getLast? = some c → isSpaceRune c = false) →
      t.length ≤ t'.length := by
    intro t t' w w' e hw' hl
    apply Nat.le_of_not_lt
    intro hlt
    obtain ⟨x, rfl⟩ : ∃ x, t = t' ++ x := by
      have := List.prefix_of_prefix_length_le (l₁ := t') (l₂ := t) (l₃ := t ++ w) (by rw [e]; exact List.prefix_append ..) (List.prefix_append ..) (Nat.le_of_lt hlt)
      obtain ⟨x, hx⟩ := this
      exact ⟨x, hx.symm⟩
    rw [List.append_assoc] at e
    have e2 := List.append_cancel_left e
    cases hx : x.getLast? with
    | none => rw [List.getLast?_eq_none_iff] at hx; subst hx; simp at hlt
    | some c =>
      have h1 := hl c (by rw [List.getLast?_append, hx]; rfl)
      rw [hw' c (by rw [← e2]; simp [List.mem_of_getLast? hx])] at h1
      cases h1
  have h1 := key (e.symm.trans e') hw' hl
  have h2 := key (e'.symm.trans e) hw hl'
  have := e.symm.trans e'
  exact (List.append_inj this (Nat.le_antisymm h1 h2)).1

/-- The header without the white space at its end. -/
def headerTrimmed : Str := unlex [.comment (c!" This config was built from JSON using NGINX crossplane.".map .plain) .nl,
   .comment (c!" If you encounter any bugs please report them here:".map .plain) .nl,
   .comment (c!" https://github.com/nginxinc/crossplane/issues".map .plain) .eof]

theorem header_trimmed : Trimmed header headerTrimmed := by
  refine ⟨⟨['\n', '\n'], by decide +kernel, by decide⟩, ?_⟩
  have : headerTrimmed.getLast? = some 's' := by decide +kernel
  intro c hc
  rw [this] at hc; cases hc; decide

/-- The tokens of the trimmed text with a line feed. -/
theorem trimmed_toks {isPrint : Char → Bool} {o : BuildOptions} {cfg : Config} (h : Readable isPrint cfg.parsed) (ha : CommentsApart cfg.parsed)
    (hb : NoBuilder isPrint o cfg.parsed) (he : NoBlankEnd cfg.parsed) {t : Str} (ht : Trimmed (fullText isPrint o cfg) t) :
    Toks (heads isPrint) (headerDirs o ++ cfg.parsed) (lex (t ++ ['\n'])) := by
  obtain ⟨h1, h2⟩ := bodyText_last h.lexable hb he
  by_cases hn : cfg.parsed = []
  · have hbody : bodyText isPrint o cfg.parsed = [] := by rw [hn]; rfl
    unfold fullText at ht
    rw [hbody, List.append_nil] at ht
    rw [hn, List.append_nil]
    cases hh : o.header with
    | false =>
      rw [hh] at ht
      obtain rfl : t = [] := ht.self (by simp)
      unfold headerDirs
      rw [hh]
      exact Toks.nil
    | true =>
      rw [hh, if_pos rfl] at ht
      rw [ht.unique header_trimmed]
      have e : lex (headerTrimmed ++ ['\n']) = headerToks := by decide +kernel
      rw [e]
      have := header_toks (hd := heads isPrint) hh Toks.nil
      simpa using this
  · have : t = fullText isPrint o cfg := by
      refine ht.self ?_
      intro c hc
      unfold fullText at hc
      rw [List.getLast?_append] at hc
      cases hx : (bodyText isPrint o cfg.parsed).getLast? with
      | none => exact absurd (List.getLast?_eq_none_iff.mp hx) (h1 hn)
      | some x => rw [hx] at hc; cases hc; exact h2 _ hx
    rw [this]
    exact fullText_nl_toks h ha hb

end Verif
