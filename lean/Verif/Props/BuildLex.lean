import Verif.Proofs.BuildHead
import Verif.Props.Ex
/-!
# C43 and C44: the tokens of the built text
-/
namespace Verif
open Spec

/-! ## Trees of strings that are read as tokens -/

/-- Every name and argument is written as one token (of any value), the first argument of an `if` without quotes, and no comment contains a
line feed or carriage return. -/
def Lexable (isPrint : Char → Bool) (ds : List Directive) : Prop :=
  ∀ d, Within d ds → (IsComment d ∧ '\n' ∉ d.comment.getD [] ∧ '\r' ∉ d.comment.getD []) ∨
    (¬ IsComment d ∧ (∀ s ∈ d.directive :: d.args, ∃ v, IsToken (Enquote isPrint s) v) ∧
      (d.directive = c!"if" → ∀ a as, d.args = a :: as → needsQuote a = false))

/-- No directive is built by an external builder. -/
def NoBuilder (isPrint : Char → Bool) (o : BuildOptions) (ds : List Directive) : Prop :=
  ∀ d, Within d ds → (buildSetup o).ext (Enquote isPrint d.directive) = none

open Classical in
/-- The item of a string: with the string as its value if there is one. -/
noncomputable def itemOf (isPrint : Char → Bool) (s : Str) : Item :=
  if h : IsToken (Enquote isPrint s) s then h.choose else if h : ∃ v, IsToken (Enquote isPrint s) v then h.choose_spec.choose else .space ' '

theorem itemOf_spec {isPrint : Char → Bool} {s : Str} (h : ∃ v, IsToken (Enquote isPrint s) v) :
    (itemOf isPrint s).text = Enquote isPrint s ∧ ∃ v, OneTok (itemOf isPrint s) v := by
  unfold itemOf
  by_cases h1 : IsToken (Enquote isPrint s) s
  · rw [dif_pos h1]; exact ⟨h1.choose_spec.1, _, h1.choose_spec.2⟩
  · rw [dif_neg h1, dif_pos h]; exact ⟨h.choose_spec.choose_spec.1, _, h.choose_spec.choose_spec.2⟩

theorem itemOf_value {isPrint : Char → Bool} {s : Str} (h : IsToken (Enquote isPrint s) s) : OneTok (itemOf isPrint s) s := by
  unfold itemOf; rw [dif_pos h]; exact h.choose_spec.2

theorem Enquote_start (isPrint : Char → Bool) {s : Str} (h : needsQuote s = true) : ∃ q r, Enquote isPrint s = q :: r ∧ (q = '"' ∨ q = '\'') := by
  rw [C40_text, if_pos h]
  refine ⟨quoteFor s, _, rfl, ?_⟩
  unfold quoteFor
  split <;> simp

theorem Enquote_plain (isPrint : Char → Bool) {s : Str} (h : needsQuote s = false) : Enquote isPrint s = s := by
  rw [C40_text, if_neg (by simp [h])]

theorem Enquote_if (isPrint : Char → Bool) (s : Str) : Enquote isPrint s = c!"if" ↔ s = c!"if" := by
  constructor
  · intro h
    cases hn : needsQuote s with
    | false => rwa [Enquote_plain isPrint hn] at h
    | true =>
      obtain ⟨q, r, e, hq⟩ := Enquote_start isPrint hn
      rw [h] at e
      rcases hq with rfl | rfl <;> cases e
  · rintro rfl; rw [Enquote_plain isPrint (by decide)]

theorem itemOf_word {isPrint : Char → Bool} {s : Str} (h : ∃ v, IsToken (Enquote isPrint s) v) (hn : needsQuote s = false) :
    IsWordItem (itemOf isPrint s) := by
  obtain ⟨ht, v, hv⟩ := itemOf_spec h
  rw [Enquote_plain isPrint hn] at ht
  obtain ⟨c, cs, rfl, hc, -⟩ := needsQuote_false hn
  cases hi : itemOf isPrint (c :: cs) with
  | word us => exact ⟨us, rfl⟩
  | quoted q us cl =>
    rw [hi] at ht hv
    cases hv with
    | quoted hq =>
      simp only [Item.text, List.cons_append, List.cons.injEq] at ht
      obtain ⟨rfl, -⟩ := ht
      rcases hq with rfl | rfl
      · exact absurd rfl hc.2.2.2.2.1
      · exact absurd rfl hc.2.2.2.2.2
  | space c => rw [hi] at hv; cases hv
  | special c => rw [hi] at hv; cases hv
  | comment us e => rw [hi] at hv; cases hv

/-- The items of the heads of a tree. -/
noncomputable def heads (isPrint : Char → Bool) : Str → List Str → List Item := headItems (Enquote isPrint) (itemOf isPrint)

theorem Lexable.head {isPrint : Char → Bool} {ds : List Directive} (h : Lexable isPrint ds) {d : Directive} (hd : Within d ds) (hc : ¬ IsComment d) :
    (∀ a ∈ d.directive :: d.args, ∃ v, IsToken (Enquote isPrint a) v) ∧
    (Enquote isPrint d.directive = c!"if" → ∀ a as, d.args = a :: as → IsWordItem (itemOf isPrint a)) := by
  rcases h d hd with ⟨h1, -⟩ | ⟨-, h1, h2⟩
  · exact absurd h1 hc
  · refine ⟨h1, fun hi a as e => itemOf_word (h1 a (by simp [e])) (h2 ((Enquote_if isPrint _).mp hi) a as e)⟩

theorem Lexable.treeOk {isPrint : Char → Bool} {ds : List Directive} (h : Lexable isPrint ds) : TreeOk (heads isPrint) ds := by
  intro d hd
  rcases h d hd with h1 | ⟨hc, -⟩
  · exact Or.inl h1
  · obtain ⟨h1, h2⟩ := h.head hd hc
    exact Or.inr ⟨hc, headItems_ok (fun a ha => (itemOf_spec (h1 a ha)).2) h2⟩

theorem Lexable.text {isPrint : Char → Bool} {ds : List Directive} (h : Lexable isPrint ds) :
    ∀ d, Within d ds → ¬ IsComment d → unlex (heads isPrint d.directive d.args) = headText (Enquote isPrint) d.directive d.args := by
  intro d hd hc
  obtain ⟨h1, h2⟩ := h.head hd hc
  exact headItems_text _ _ (fun a ha => (itemOf_spec (h1 a ha)).1) h2

theorem Lexable.merge {isPrint : Char → Bool} {ds : List Directive} (h : Lexable isPrint ds) : Lexable isPrint (mergeL ds) := by
  refine merge_within ⟨?_, ?_⟩ ds h
  · intro d e h1 h2 h3
    have : IsComment d ↔ IsComment e := by unfold IsComment; rw [h1, h3]
    rw [h1, h2, h3, this]
    exact id
  · intro d e hd he hc hc'
    rcases hd with ⟨-, h1, h2⟩ | ⟨hd, -⟩
    · rcases he with ⟨-, h3, h4⟩ | ⟨he, -⟩
      · left
        refine ⟨⟨hc.1, by simp⟩, ?_, ?_⟩ <;> simp [h1, h2, h3, h4]
      · exact absurd hc' he
    · exact absurd hc hd

/-- The text of a tree, with the given margins. -/
theorem bodyText_eq {isPrint : Char → Bool} {o : BuildOptions} {ds : List Directive} (h : Lexable isPrint ds) (hb : NoBuilder isPrint o ds) :
    bodyText isPrint o ds = linesText (Enquote isPrint) (indentOf o) o.tabs ds := by
  unfold bodyText linesText fileLines
  rw [layout_unregistered _ _ _ _ _ hb]
  show dropFinalLF (linesText (Enquote isPrint) (indentOf o) o.tabs ds) = linesText (Enquote isPrint) (indentOf o) o.tabs ds
  unfold dropFinalLF
  rw [if_neg]
  intro hl
  rw [linesText, ← filePieces_text _ (heads isPrint) _ _ _ h.text] at hl
  -- the last character
  have key : ∀ (ds : List Directive) (last : Int), Lexable isPrint ds → ∀ c, (ptext (margins (indentOf o) o.tabs) (pieces (heads isPrint) 0 last ds)).getLast? = some c → c ≠ '\n' := by
    intro ds
    induction ds with
    | nil => intro last _ c hc; simp [pieces, ptext] at hc
    | cons d ds ih =>
      intro last h c hc
      have htail : Lexable isPrint ds := fun x hx => h x (Within.mono hx (fun _ hm => List.mem_cons_of_mem _ hm))
      have hcom : IsComment d → '\n' ∉ d.comment.getD [] := by
        intro hic
        rcases h d (.here (by simp)) with ⟨-, h1, -⟩ | ⟨h1, -⟩
        · exact h1
        · exact absurd hic h1
      have hend : ∀ x, ('#' :: d.comment.getD []).getLast? = some x → IsComment d → x ≠ '\n' := by
        intro x hx hic
        rintro rfl
        rcases List.mem_cons.mp (List.mem_of_getLast? hx) with h1 | h1
        · cases h1
        · exact hcom hic h1
      rw [pieces] at hc
      by_cases hon : CommentOn d last
      · rw [if_pos hon, ptext, ptext, List.getLast?_append, List.getLast?_append] at hc
        cases ht : (ptext (margins (indentOf o) o.tabs) (pieces (heads isPrint) 0 last ds)).getLast? with
        | some x => rw [ht] at hc; simp at hc; subst hc; exact ih last htail x ht
        | none =>
          rw [ht, Option.none_or] at hc
          cases hx : ('#' :: d.comment.getD []).getLast? with
          | none => simp at hx
          | some x => rw [hx] at hc; simp at hc; subst hc; exact hend x hx ⟨hon.1, hon.2.1⟩
      · rw [if_neg hon, ptext, ptext_append, ← List.append_assoc, List.getLast?_append] at hc
        cases ht : (ptext (margins (indentOf o) o.tabs) (pieces (heads isPrint) 0 d.line ds)).getLast? with
        | some x => rw [ht] at hc; simp at hc; subst hc; exact ih d.line htail x ht
        | none =>
          rw [ht, Option.none_or, List.getLast?_append] at hc
          by_cases hic : IsComment d
          · rw [piecesDir_comment hic, ptext, ptext, List.append_nil] at hc
            cases hx : ('#' :: d.comment.getD []).getLast? with
            | none => simp at hx
            | some x => rw [hx] at hc; simp at hc; subst hc; exact hend x hx hic
          · rw [piecesDir_other hic] at hc
            cases hb : d.block with
            | none =>
              rw [hb, piecesBlock, ptext, ptext, unlex_append, List.append_nil] at hc
              simp [unlex, Item.text] at hc
              subst hc; decide
            | some b =>
              have e : ∀ head : List Item, ptext (margins (indentOf o) o.tabs) (.code head :: (pieces (heads isPrint) (0 + 1) d.line b ++ [.nl 0, .code [.special '}']])) =
                  (unlex head ++ (ptext (margins (indentOf o) o.tabs) (pieces (heads isPrint) (0 + 1) d.line b) ++ ('\n' :: margins (indentOf o) o.tabs 0))) ++ ['}'] := by
                intro head; simp [ptext, ptext_append, unlex, Item.text]
              rw [hb, piecesBlock, e, List.getLast?_append] at hc
              simp at hc
              subst hc; decide
  rcases filePieces_cases (heads isPrint) ds with ⟨e, -⟩ | ⟨e, -⟩
  · rw [← e] at hl; exact key ds 0 h _ hl rfl
  · refine key ds 0 h '\n' ?_ rfl
    rw [e, ptext, List.getLast?_append, hl]; rfl

theorem bodyText_merge {isPrint : Char → Bool} {o : BuildOptions} {ds : List Directive} (h : Lexable isPrint ds) (hb : NoBuilder isPrint o ds) :
    bodyText isPrint o ds = linesText (Enquote isPrint) (indentOf o) o.tabs (mergeL ds) := by
  rw [bodyText_eq h hb, linesText_merge]

/-- The tokens of the body. -/
theorem bodyText_toks {isPrint : Char → Bool} {o : BuildOptions} {ds : List Directive} (h : Lexable isPrint ds) (hb : NoBuilder isPrint o ds) :
    Toks (heads isPrint) (mergeL ds) (lex (bodyText isPrint o ds)) := by
  rw [bodyText_merge h hb]
  exact linesText_toks _ _ h.merge.text h.merge.treeOk (merge_apart ds)

/-! ## C43 -/

/-- The tokens of the header. -/
def headerToks : List Tok :=
  [⟨c!"# This config was built from JSON using NGINX crossplane.", 1, false, none⟩,
   ⟨c!"# If you encounter any bugs please report them here:", 2, false, none⟩,
   ⟨c!"# https://github.com/nginxinc/crossplane/issues", 3, false, none⟩]

/-- The items of the header. -/
def headerItems : List Item :=
  [.comment (c!" This config was built from JSON using NGINX crossplane.".map .plain) .nl,
   .comment (c!" If you encounter any bugs please report them here:".map .plain) .nl,
   .comment (c!" https://github.com/nginxinc/crossplane/issues".map .plain) .nl, .space '\n']

/-- A token further down. -/
def Tok.down (k : Int) (t : Tok) : Tok := { t with line := t.line + k }

theorem specToks_start (is : List Item) : ∀ (line s s' : Int) (dup : Bool), specToks line s 0 dup false is = specToks line s' 0 dup false is := by
  induction is with
  | nil => intros; simp [specToks]
  | cons i is ih =>
    intro line s s' dup
    cases i with
    | space c => exact ih _ _ _ _
    | word us => rfl
    | quoted q us cl => rfl
    | comment us e => rfl
    | special c => simp [specToks]

theorem wordLine_down (line k : Int) (us : List U) : wordLine (line + k) us = wordLine line us + k := by
  unfold wordLine
  split <;> omega

theorem specToks_down (k : Int) (is : List Item) : ∀ (line s : Int) (D : Nat) (dup g : Bool), (∀ t ∈ specToks line s D dup g is, t.error = none) →
    specToks (line + k) (s + k) D dup g is = (specToks line s D dup g is).map (Tok.down k) := by
  induction is with
  | nil =>
    intro line s D dup g h
    rw [specToks] at h
    rw [specToks, specToks]
    split at h
    · simp at h
    · rename_i hd; rw [if_neg hd, if_neg hd]; rfl
  | cons i is ih =>
    intro line s D dup g h
    cases i with
    | space c =>
      rw [specToks] at h
      rw [specToks, specToks, Int.add_right_comm]
      exact ih _ _ _ _ _ h
    | word us =>
      rw [specToks] at h
      rw [specToks, specToks, Int.add_right_comm, wordLine_down, List.map_cons, ih _ _ _ _ _ (fun t ht => h t (by simp [ht]))]
      rfl
    | quoted q us cl =>
      rw [specToks] at h
      rw [specToks, specToks, Int.add_right_comm]
      simp only [List.map_append]
      rw [ih _ _ _ _ _ (fun t ht => h t (by simp [ht]))]
      congr 1
      split <;> simp [Tok.down]
    | comment us e =>
      rw [specToks] at h
      rw [specToks, specToks, Int.add_right_comm, List.map_cons, ih _ _ _ _ _ (fun t ht => h t (by simp [ht]))]
      rfl
    | special c =>
      rw [specToks] at h
      rw [specToks, specToks]
      have hs : (if g = true then s + k else line + k) = (if g = true then s else line) + k := by split <;> rfl
      simp only [hs] at h ⊢
      by_cases h1 : dup = true ∧ c ≠ '}'
      · rw [if_pos h1] at h; simp at h
      · rw [if_neg h1] at h
        rw [if_neg h1, if_neg h1]
        by_cases h2 : c = '}' ∧ D = 0
        · rw [if_pos h2] at h; simp at h
        · rw [if_neg h2] at h
          rw [if_neg h2, if_neg h2, List.map_cons, ih _ _ _ _ _ (fun t ht => h t (by simp [ht]))]
          rfl

theorem Toks.noError {hd : Str → List Str → List Item} {ds : List Directive} {toks : List Tok} (h : Toks hd ds toks) : ∀ t ∈ toks, t.error = none := by
  have hv : ∀ {hs : List Tok} {vals : List (Str × Bool)}, Vals hs vals → ∀ t ∈ hs, t.error = none := by
    intro hs vals hv t ht
    have hm := List.mem_map_of_mem (f := fun t : Tok => (t.value, t.quoted, t.error)) ht
    unfold Vals at hv
    rw [hv] at hm
    obtain ⟨v, -, e⟩ := List.mem_map.mp hm
    exact (Prod.mk.inj (Prod.mk.inj e).2).2.symm
  induction h with
  | nil => simp
  | comment _ _ ih => intro t ht; rcases List.mem_cons.mp ht with rfl | ht; · rfl
                      exact ih t ht
  | simple _ v _ _ ih =>
    intro t ht
    simp at ht
    rcases ht with ht | rfl | ht
    · exact hv v t ht
    · rfl
    · exact ih t ht
  | block _ v _ _ _ ih1 ih2 =>
    intro t ht
    simp at ht
    rcases ht with ht | rfl | ht | rfl | ht
    · exact hv v t ht
    · rfl
    · exact ih1 t ht
    · rfl
    · exact ih2 t ht

theorem headerItems_text : unlex headerItems = header := by decide +kernel

theorem headerItems_wf {rest : List Item} (h : WF rest) : WF (headerItems ++ rest) := by
  have hw : ∀ u : U, (∃ c : Char, u = .plain c ∧ c ≠ '\\' ∧ c ≠ '\r' ∧ c ≠ '\n') → u.wf ∧ u.char ≠ '\n' := by
    rintro u ⟨c, rfl, h1, h2, h3⟩; exact ⟨⟨h1, h2⟩, h3⟩
  have hm : ∀ s : Str, (∀ c ∈ s, c ≠ '\\' ∧ c ≠ '\r' ∧ c ≠ '\n') → ∀ u ∈ s.map U.plain, u.wf ∧ u.char ≠ '\n' := by
    intro s hs u hu
    obtain ⟨c, hc, rfl⟩ := List.mem_map.mp hu
    exact hw _ ⟨c, rfl, hs c hc⟩
  refine ⟨hm _ (by decide), by simp, hm _ (by decide), by simp, hm _ (by decide), by simp, by decide, by decide, h⟩

theorem headerItems_toks (is : List Item) : toksOf (headerItems ++ is) = headerToks ++ specToks 5 3 0 false false is := by
  have h : ∀ s : Str, textOf (s.map U.plain) = s := by
    intro s; induction s with
    | nil => rfl
    | cons c s ih => rw [List.map_cons, textOf_cons, ih]; rfl
  unfold toksOf headerItems headerToks
  simp only [List.cons_append, List.nil_append, specToks, h, CommentEnd.text]
  rfl

/-- C43: the tokens of the body do not depend on the indentation and tabs. -/
theorem C43_margins_partial (isPrint : Char → Bool) (o o' : BuildOptions) (ds : List Directive) (h : Lexable isPrint ds) (hb : NoBuilder isPrint o ds)
    (hb' : NoBuilder isPrint o' ds) : lex (bodyText isPrint o ds) = lex (bodyText isPrint o' ds) := by
  rw [bodyText_merge h hb, bodyText_merge h hb', linesText_lex _ _ h.merge.text h.merge.treeOk (merge_apart ds),
    linesText_lex _ _ h.merge.text h.merge.treeOk (merge_apart ds)]
  exact toItems_margins (margins_ok _ _) (margins_ok _ _) _ _ (Nat.le_refl _) _ _ _ _ _

/-- C43: the header contributes three comments and moves the rest four lines down. -/
theorem C43_header_partial (isPrint : Char → Bool) (o : BuildOptions) (ds : List Directive) (h : Lexable isPrint ds) (hb : NoBuilder isPrint o ds) :
    lex (header ++ bodyText isPrint o ds) = headerToks ++ (lex (bodyText isPrint o ds)).map (Tok.down 4) := by
  have hne := (bodyText_toks h hb).noError
  rw [bodyText_merge h hb] at hne ⊢
  have hps := filePieces_ok h.merge.treeOk (merge_apart ds)
  have hm := margins_ok (indentOf o) o.tabs
  rw [linesText_lex _ _ h.merge.text h.merge.treeOk (merge_apart ds)] at hne ⊢
  unfold linesText
  rw [← filePieces_text _ (heads isPrint) _ _ _ h.merge.text, ← toItems_text _ _ _ (Nat.le_refl _) hps, ← headerItems_text, ← List.append_assoc,
    ← unlex_append, lex_items (headerItems_wf (toItems_wf hm _ _ (Nat.le_refl _) hps)) (leftover_dangling _), headerItems_toks]
  congr 1
  have := specToks_down 4 _ 1 1 0 false false hne
  rw [toksOf, ← this, specToks_start _ 5 3 5]
  rfl

/-- C43 is false for a string that ends in a backslash: the closing quote is escaped and the margin becomes part of the string. -/
theorem C43_false : ∃ (isPrint : Char → Bool) (ds : List Directive), (∀ c : Char, 32 ≤ c.toNat → c.toNat ≤ 126 → isPrint c = true) ∧
    (lex (bodyText isPrint {} ds)).map Tok.value ≠ (lex (bodyText isPrint { tabs := true } ds)).map Tok.value := by
  refine ⟨fun c => decide (32 ≤ c.toNat), [blk c!"a" 1 [] [dir c!"b" 2 [c!"c\\"], dir c!"d" 3 [c!"e f"]]], by intro c h _; simpa using h, ?_⟩
  decide +kernel

/-! ## C44 -/

mutual
/-- A tree without its comments. -/
def dropComments : List Directive → List Directive
  | [] => []
  | d :: ds => if IsComment d then dropComments ds else dropCommentsD d :: dropComments ds
def dropCommentsD : Directive → Directive
  | ⟨dd, dl, dargs, df, dincl, dblock, dcomm, dmap⟩ => ⟨dd, dl, dargs, df, dincl, dropCommentsO dblock, dcomm, dmap⟩
def dropCommentsO : Option (List Directive) → Option (List Directive)
  | none => none
  | some ds => some (dropComments ds)
end

/-- A comment token. -/
def isCommentTok (t : Tok) : Bool := !t.quoted && t.value.head? == some '#'

/-- The values of the tokens that are no comments, and whether they are quoted. -/
def codeOf (toks : List Tok) : List (Str × Bool) := (toks.filter (!isCommentTok ·)).map fun t => (t.value, t.quoted)

mutual
/-- The values of the tokens of a tree, comments aside. -/
def codeVals (hd : Str → List Str → List Item) : List Directive → List (Str × Bool)
  | [] => []
  | d :: ds => codeValsD hd d ++ codeVals hd ds
def codeValsD (hd : Str → List Str → List Item) : Directive → List (Str × Bool)
  | ⟨dd, _, dargs, _, _, dblock, dcomm, _⟩ => if dd = c!"#" ∧ dcomm ≠ none then [] else itemVals (hd dd dargs) ++ codeValsO hd dblock
def codeValsO (hd : Str → List Str → List Item) : Option (List Directive) → List (Str × Bool)
  | none => [(c!";", false)]
  | some ds => (c!"{", false) :: (codeVals hd ds ++ [(c!"}", false)])
end

theorem codeValsD_comment {hd : Str → List Str → List Item} {d : Directive} (h : IsComment d) : codeValsD hd d = [] := by
  obtain ⟨dd, dl, dargs, df, dincl, dblock, dcomm, dmap⟩ := d
  rw [codeValsD]; exact if_pos h

theorem codeValsD_other {hd : Str → List Str → List Item} {d : Directive} (h : ¬ IsComment d) :
    codeValsD hd d = itemVals (hd d.directive d.args) ++ codeValsO hd d.block := by
  obtain ⟨dd, dl, dargs, df, dincl, dblock, dcomm, dmap⟩ := d
  rw [codeValsD]; exact if_neg h

theorem codeOf_append (a b : List Tok) : codeOf (a ++ b) = codeOf a ++ codeOf b := by simp [codeOf]

theorem codeOf_vals {hs : List Tok} {vals : List (Str × Bool)} (h : Vals hs vals) (hc : ∀ v ∈ vals, ¬ (v.2 = false ∧ ∃ t, v.1 = '#' :: t)) :
    codeOf hs = vals := by
  induction hs generalizing vals with
  | nil => cases vals with
    | nil => rfl
    | cons v vs => simp [Vals] at h
  | cons t hs ih =>
    cases vals with
    | nil => simp [Vals] at h
    | cons v vs =>
      simp only [Vals, List.map_cons, List.cons.injEq, Prod.mk.injEq] at h
      obtain ⟨⟨h1, h2, h3⟩, h4⟩ := h
      have ht : isCommentTok t = false := by
        have := hc v (by simp)
        unfold isCommentTok
        rw [h1, h2]
        obtain ⟨a, b⟩ := v
        simp only at this ⊢
        cases b with
        | true => rfl
        | false =>
          cases a with
          | nil => rfl
          | cons x xs =>
            have hx : x ≠ '#' := fun e => this ⟨rfl, xs, by rw [e]⟩
            simp [hx]
      have := ih (vals := vs) h4 (fun v hv => hc v (by simp [hv]))
      unfold codeOf at this ⊢
      rw [List.filter_cons_of_pos (by simp [ht]), List.map_cons, this, h1, h2]

theorem Toks.code {hd : Str → List Str → List Item} {ds : List Directive} {toks : List Tok} (h : Toks hd ds toks) (ht : TreeOk hd ds) :
    codeOf toks = codeVals hd ds := by
  have hh : ∀ {d : Directive} {ds}, TreeOk hd (d :: ds) → ¬ IsComment d → HeadOk (hd d.directive d.args) := by
    intro d ds ht hc
    rcases ht d (.here (by simp)) with ⟨h, -⟩ | ⟨-, h⟩
    · exact absurd h hc
    · exact h
  induction h with
  | nil => rfl
  | comment hc _ ih => rw [codeVals, codeValsD_comment hc, ← ih ht.tail]; rfl
  | simple hc v hb _ ih =>
    rw [codeVals, codeValsD_other hc, hb, codeValsO, codeOf_append, codeOf_vals v (hh ht hc).noComment, ← ih ht.tail]
    simp [codeOf, isCommentTok]
  | block hc v hb _ _ ih1 ih2 =>
    rw [codeVals, codeValsD_other hc, hb, codeValsO, codeOf_append, codeOf_vals v (hh ht hc).noComment, ← ih2 ht.tail, ← ih1 (ht.block hb)]
    simp [codeOf, isCommentTok]

theorem codeVals_glue (hd : Str → List Str → List Item) (d : Directive) (ds : List Directive) : codeVals hd (glue d ds) = codeVals hd (d :: ds) := by
  cases ds with
  | nil => rfl
  | cons y ys =>
    rw [glue]
    by_cases h : IsComment d ∧ CommentOn y d.line
    · rw [if_pos h]
      rw [codeVals, codeVals, codeVals, codeValsD_comment h.1, codeValsD_comment (d := y) ⟨h.2.1, h.2.2.1⟩, codeValsD_comment]
      · rfl
      · exact ⟨h.1.1, by simp⟩
    · rw [if_neg h]

mutual
theorem codeVals_merge (hd : Str → List Str → List Item) : (ds : List Directive) → codeVals hd (mergeL ds) = codeVals hd ds
  | [] => rfl
  | d :: ds => by rw [mergeL, codeVals_glue, codeVals, codeVals, codeValsD_merge hd d, codeVals_merge hd ds]
theorem codeValsD_merge (hd : Str → List Str → List Item) : (d : Directive) → codeValsD hd (mergeD d) = codeValsD hd d
  | ⟨dd, dl, dargs, df, dincl, dblock, dcomm, dmap⟩ => by rw [mergeD, codeValsD, codeValsD, codeValsO_merge hd dblock]
theorem codeValsO_merge (hd : Str → List Str → List Item) : (b : Option (List Directive)) → codeValsO hd (mergeO b) = codeValsO hd b
  | none => rfl
  | some ds => by rw [mergeO, codeValsO, codeValsO, codeVals_merge hd ds]
end

mutual
theorem codeVals_drop (hd : Str → List Str → List Item) : (ds : List Directive) → codeVals hd (dropComments ds) = codeVals hd ds
  | [] => rfl
  | d :: ds => by
    rw [dropComments, codeVals]
    by_cases h : IsComment d
    · rw [if_pos h, codeValsD_comment h, codeVals_drop hd ds]; rfl
    · rw [if_neg h, codeVals, codeValsD_drop hd d, codeVals_drop hd ds]
theorem codeValsD_drop (hd : Str → List Str → List Item) : (d : Directive) → codeValsD hd (dropCommentsD d) = codeValsD hd d
  | ⟨dd, dl, dargs, df, dincl, dblock, dcomm, dmap⟩ => by rw [dropCommentsD, codeValsD, codeValsD, codeValsO_drop hd dblock]
theorem codeValsO_drop (hd : Str → List Str → List Item) : (b : Option (List Directive)) → codeValsO hd (dropCommentsO b) = codeValsO hd b
  | none => rfl
  | some ds => by rw [dropCommentsO, codeValsO, codeValsO, codeVals_drop hd ds]
end

theorem dropComments_within (ds : List Directive) : ∀ x, Within x (dropComments ds) → ∃ y, Within y ds ∧ x = dropCommentsD y ∧ ¬ IsComment y := by
  induction ds using listInd with
  | h0 => intro x hx; cases hx with
    | here h => cases h
    | deep h => cases h
  | h1 d ds ihb ih =>
    intro x hx
    have htail : ∀ x, Within x (dropComments ds) → ∃ y, Within y (d :: ds) ∧ x = dropCommentsD y ∧ ¬ IsComment y := by
      intro x hx
      obtain ⟨y, h1, h2⟩ := ih x hx
      exact ⟨y, Within.mono h1 (fun _ hm => List.mem_cons_of_mem _ hm), h2⟩
    rw [dropComments] at hx
    by_cases h : IsComment d
    · rw [if_pos h] at hx; exact htail x hx
    · rw [if_neg h] at hx
      have hbl : (dropCommentsD d).block = dropCommentsO d.block := by
        obtain ⟨dd, dl, dargs, df, dincl, dblock, dcomm, dmap⟩ := d; rfl
      cases hx with
      | here hm =>
        rcases List.mem_cons.mp hm with rfl | hm
        · exact ⟨d, .here (by simp), rfl, h⟩
        · exact htail x (.here hm)
      | deep hm hb hw =>
        rcases List.mem_cons.mp hm with rfl | hm
        · rw [hbl] at hb
          cases hdb : d.block with
          | none => rw [hdb] at hb; cases hb
          | some b =>
            rw [hdb] at hb; cases hb
            obtain ⟨y, h1, h2⟩ := ihb b hdb x hw
            exact ⟨y, .deep (by simp) hdb h1, h2⟩
        · exact htail x (.deep hm hb hw)

theorem dropCommentsD_fields (d : Directive) : (dropCommentsD d).directive = d.directive ∧ (dropCommentsD d).args = d.args ∧ (dropCommentsD d).comment = d.comment := by
  obtain ⟨dd, dl, dargs, df, dincl, dblock, dcomm, dmap⟩ := d; exact ⟨rfl, rfl, rfl⟩

theorem Lexable.drop {isPrint : Char → Bool} {ds : List Directive} (h : Lexable isPrint ds) : Lexable isPrint (dropComments ds) := by
  intro x hx
  obtain ⟨y, h1, rfl, h2⟩ := dropComments_within ds x hx
  obtain ⟨e1, e2, e3⟩ := dropCommentsD_fields y
  have hc : IsComment (dropCommentsD y) ↔ IsComment y := by unfold IsComment; rw [e1, e3]
  have := h y h1
  rw [e1, e2, e3, hc]
  exact this

/-- C44: the tokens that are no comments are those of the tree without its comments: no comment takes up anything else, and nothing else
becomes part of a comment. -/
theorem C44_code_partial (isPrint : Char → Bool) (o o' : BuildOptions) (ds : List Directive) (h : Lexable isPrint ds) (hb : NoBuilder isPrint o ds)
    (hb' : NoBuilder isPrint o' (dropComments ds)) :
    codeOf (lex (bodyText isPrint o ds)) = codeOf (lex (bodyText isPrint o' (dropComments ds))) := by
  rw [(bodyText_toks h hb).code h.merge.treeOk, (bodyText_toks h.drop hb').code h.drop.merge.treeOk, codeVals_merge, codeVals_merge, codeVals_drop]

/-- The text ends with the comment `c`, or with it and further comments. -/
def EndsWithComment (c s : Str) : Prop := ∃ pre more, s = pre ++ '#' :: c ++ List.flatMap (c!" #" ++ ·) more

theorem EndsWithComment.before {c s : Str} (h : EndsWithComment c s) (t : Str) : EndsWithComment c (t ++ s) := by
  obtain ⟨pre, more, rfl⟩ := h
  exact ⟨t ++ pre, more, by simp⟩

theorem layout_more (quote : Str → Str) (depth : Nat) (last : Int) (ds : List Directive) :
    ∃ more, (layout quote noBuilders depth last ds).1 = List.flatMap (c!" #" ++ ·) more := by
  induction ds with
  | nil => exact ⟨[], rfl⟩
  | cons d ds ih =>
    rw [layout_cons]
    by_cases h : CommentOn d last
    · rw [if_pos h]
      obtain ⟨more, e⟩ := ih
      exact ⟨d.comment.getD [] :: more, by simp only [e, List.flatMap_cons]⟩
    · rw [if_neg h]; exact ⟨[], rfl⟩

theorem layoutDir_block {quote : Str → Str} {depth : Nat} {tail : Str} {d : Directive} (h : ¬ IsComment d) :
    layoutDir quote noBuilders depth tail d = layoutBlock quote noBuilders depth tail (headText quote d.directive d.args) d.line d.block := by
  obtain ⟨dd, dl, dargs, df, dincl, dblock, dcomm, dmap⟩ := d
  unfold layoutDir
  have : (if dd = c!"#" then dcomm else none) = none := by
    by_cases h1 : dd = c!"#"
    · rw [if_pos h1]
      by_cases h2 : dcomm = none
      · exact h2
      · exact absurd ⟨h1, h2⟩ h
    · rw [if_neg h1]
  simp only [noBuilders, this]

theorem layout_comment (quote : Str → Str) {c : Directive} (hc : IsComment c) (ds : List Directive) : ∀ (depth : Nat) (last : Int),
    (∀ d, Within d ds → IsComment d → d.block = none) → Within c ds →
    EndsWithComment (c.comment.getD []) (layout quote noBuilders depth last ds).1 ∨
      ∃ l ∈ (layout quote noBuilders depth last ds).2, EndsWithComment (c.comment.getD []) l.text := by
  induction ds using listInd with
  | h0 => intro depth last _ h; cases h with
    | here h => cases h
    | deep h => cases h
  | h1 d ds ihb ih =>
    intro depth last hno hw
    have hno2 : ∀ x, Within x ds → IsComment x → x.block = none := fun x hx => hno x (Within.mono hx (fun _ hm => List.mem_cons_of_mem _ hm))
    rw [layout_cons]
    -- the directive itself, its block, or the rest
    have hcases : c = d ∨ (∃ b, d.block = some b ∧ Within c b) ∨ Within c ds := by
      cases hw with
      | here hm => rcases List.mem_cons.mp hm with rfl | hm
                   · exact Or.inl rfl
                   · exact Or.inr (Or.inr (.here hm))
      | deep hm hb hw => rcases List.mem_cons.mp hm with rfl | hm
                         · exact Or.inr (Or.inl ⟨_, hb, hw⟩)
                         · exact Or.inr (Or.inr (.deep hm hb hw))
    by_cases hon : CommentOn d last
    · rw [if_pos hon]
      rcases hcases with rfl | ⟨b, hb, -⟩ | hr
      · left
        obtain ⟨more, e⟩ := layout_more quote depth last ds
        exact ⟨c!" ", more, by simp [e]⟩
      · rw [hno d (.here (by simp)) ⟨hon.1, hon.2.1⟩] at hb; cases hb
      · rcases ih depth last hno2 hr with h | h
        · exact Or.inl (h.before _)
        · exact Or.inr h
    · rw [if_neg hon]
      right
      obtain ⟨more, e⟩ := layout_more quote depth d.line ds
      rcases hcases with rfl | ⟨b, hb, hw⟩ | hr
      · exact ⟨⟨depth, '#' :: c.comment.getD [] ++ List.flatMap (c!" #" ++ ·) more⟩, by rw [layoutDir_comment hc, e]; simp, [], more, by simp⟩
      · have hnc : ¬ IsComment d := fun h => by rw [hno d (.here (by simp)) h] at hb; cases hb
        rw [layoutDir_block hnc, hb]
        unfold layoutBlock
        rcases ihb b hb (depth + 1) d.line (fun x hx => hno x (.deep (by simp) hb hx)) hw with h | ⟨l, hl, h⟩
        · exact ⟨_, List.mem_append_left _ (List.mem_cons_self ..), h.before _⟩
        · exact ⟨l, by simp [hl], h⟩
      · rcases ih depth d.line hno2 hr with h | ⟨l, hl, h⟩
        · -- the rest of the last line of the directive
          by_cases hnc : IsComment d
          · exact ⟨_, by rw [layoutDir_comment hnc]; exact List.mem_append_left _ (List.mem_singleton.mpr rfl), h.before _⟩
          · rw [layoutDir_block hnc]
            cases d.block with
            | none => exact ⟨_, List.mem_append_left _ (List.mem_singleton.mpr rfl), h.before _⟩
            | some b =>
              unfold layoutBlock
              exact ⟨⟨depth, '}' :: (layout quote noBuilders depth d.line ds).1⟩, by simp, h.before ['}']⟩
        · exact ⟨l, List.mem_append_right _ hl, h⟩

/-- C44, for all strings: every comment of the tree stands at the end of a line, where only further comments follow it. -/
theorem C44_line (isPrint : Char → Bool) (o : BuildOptions) (ds : List Directive) (hb : NoBuilder isPrint o ds)
    (hno : ∀ d, Within d ds → IsComment d → d.block = none) {c : Directive} (hc : IsComment c) (hw : Within c ds) :
    ∃ l ∈ fileLines (Enquote isPrint) (buildSetup o).ext ds, EndsWithComment (c.comment.getD []) l.text := by
  unfold fileLines
  rw [show layout (Enquote isPrint) (buildSetup o).ext 0 0 ds = layout (Enquote isPrint) noBuilders 0 0 ds from layout_unregistered _ _ _ _ _ hb]
  rcases layout_comment (Enquote isPrint) hc ds 0 0 hno hw with h | ⟨l, hl, h⟩
  · have hne : (layout (Enquote isPrint) noBuilders 0 0 ds).1 ≠ [] := by
      obtain ⟨pre, more, e⟩ := h
      rw [e]; simp
    rw [if_neg hne]
    exact ⟨_, List.mem_append_left _ (List.mem_singleton.mpr rfl), h⟩
  · exact ⟨l, List.mem_append_right _ hl, h⟩

example : ∃ l ∈ fileLines (Enquote (fun _ => true)) (buildSetup {}).ext [dir c!"a" 1 [], { dir c!"#" 1 [] with comment := some c!"x" }, dir c!"b" 1 []],
    EndsWithComment c!"x" l.text := ⟨⟨0, c!"a; #x"⟩, by decide +kernel, c!"a; ", [], rfl⟩

/-! ## Examples -/

/-- A printable character, for the examples. -/
def exPrint (c : Char) : Bool := decide (c ≠ '\r')

theorem lexable_plain {isPrint : Char → Bool} (hcr : isPrint '\r' = false) {ds : List Directive}
    (h : ∀ d, Within d ds → (IsComment d ∧ '\n' ∉ d.comment.getD [] ∧ '\r' ∉ d.comment.getD []) ∨
      (¬ IsComment d ∧ (∀ s ∈ d.directive :: d.args, (∀ c ∈ s, isPrint c = true) ∧ '\\' ∉ s ∧ s.head? ≠ some '#') ∧
        (d.directive = c!"if" → ∀ a as, d.args = a :: as → needsQuote a = false))) : Lexable isPrint ds := by
  intro d hd
  rcases h d hd with h1 | ⟨h1, h2, h3⟩
  · exact Or.inl h1
  · exact Or.inr ⟨h1, fun s hs => ⟨s, plain_token isPrint (h2 s hs).1 hcr (h2 s hs).2.1 (h2 s hs).2.2⟩, h3⟩

/-- A tree with two comments on one line and an argument with a brace. -/
def exTree : List Directive :=
  [blk c!"a" 1 [c!"x {"] [{ dir c!"#" 1 [] with comment := some c!"one" }, { dir c!"#" 1 [] with comment := some c!"two" }, dir c!"b" 2 []]]

theorem exTree_within {d : Directive} (h : Within d exTree) : d = blk c!"a" 1 [c!"x {"] [{ dir c!"#" 1 [] with comment := some c!"one" },
    { dir c!"#" 1 [] with comment := some c!"two" }, dir c!"b" 2 []] ∨ d = { dir c!"#" 1 [] with comment := some c!"one" } ∨
    d = { dir c!"#" 1 [] with comment := some c!"two" } ∨ d = dir c!"b" 2 [] := by
  unfold exTree at h
  cases h with
  | here h => simp at h; exact Or.inl h
  | deep hm hb h =>
    simp at hm; subst hm; cases hb
    cases h with
    | here h => simp at h; tauto
    | deep hm hb h =>
      simp at hm
      rcases hm with rfl | rfl | rfl <;> cases hb

theorem exTree_lexable : Lexable exPrint exTree := by
  refine lexable_plain rfl ?_
  intro d hd
  rcases exTree_within hd with rfl | rfl | rfl | rfl
  · right; exact ⟨by decide, by decide, by intro h; cases h⟩
  · left; exact ⟨by decide, by decide, by decide⟩
  · left; exact ⟨by decide, by decide, by decide⟩
  · right; exact ⟨by decide, by decide, by intro h; cases h⟩

example : bodyText exPrint {} exTree = c!"a \"x {\" { #one #two\n    b;\n}" := by decide +kernel
example : lex (bodyText exPrint {} exTree) = lex (bodyText exPrint { tabs := true, indent := 7 } exTree) :=
  C43_margins_partial _ _ _ _ exTree_lexable (fun _ _ => rfl) (fun _ _ => rfl)
example : codeOf (lex (bodyText exPrint {} exTree)) = [(c!"a", false), (c!"x {", true), (c!"{", false), (c!"b", false), (c!";", false), (c!"}", false)] := by
  rw [C44_code_partial _ _ {} _ exTree_lexable (fun _ _ => rfl) (fun _ _ => rfl)]; decide +kernel

end Verif
