import Verif.Proofs.ExtTree
import Verif.Proofs.Written
/-!
# The tokens of the texts that are written to files, with external builders and lexers
-/
namespace Verif
open Spec ExtLex

section
variable {ext : ExtLexers} {hd : Str → List Str → List Item} {xb : Directive → Option XBlock}

/-- The tokens of the built text, with lines without tokens after it. -/
theorem fullText_xtoks {isPrint : Char → Bool} {o : BuildOptions} {cfg : Config} (hh : ∀ r, ext ('#' :: r) = none)
    (hx : XText (Enquote isPrint) (buildSetup o).ext hd xb cfg.parsed) (ht : XTreeOk ext hd xb cfg.parsed) (ha : CommentsApart cfg.parsed)
    {rest : List XPiece} (hr : Quiescent ext rest) :
    Toks hd (headerDirs o ++ cfg.parsed) (lexWith ext (fullText isPrint o cfg ++ xtext (margins (indentOf o) o.tabs) rest)) := by
  unfold fullText headerDirs
  cases hh' : o.header with
  | false => simpa using bodyText_xtoks hh hx ht ha hr
  | true =>
    rw [if_pos rfl, if_pos rfl, List.append_assoc]
    obtain ⟨toks, e, h⟩ := header_xtoks hh hx ht ha hr
    rw [e]
    have hc : ∀ t : Str, IsComment (commentDir t) := fun t => ⟨rfl, by simp [commentDir]⟩
    exact Toks.comment (line := 1) (hc _) (Toks.comment (line := 2) (hc _) (Toks.comment (line := 3) (hc _) h))

/-- The tokens of the built text with one more line feed. -/
theorem fullText_nl_xtoks {isPrint : Char → Bool} {o : BuildOptions} {cfg : Config} (hh : ∀ r, ext ('#' :: r) = none)
    (hx : XText (Enquote isPrint) (buildSetup o).ext hd xb cfg.parsed) (ht : XTreeOk ext hd xb cfg.parsed) (ha : CommentsApart cfg.parsed) :
    Toks hd (headerDirs o ++ cfg.parsed) (lexWith ext (fullText isPrint o cfg ++ ['\n'])) := by
  have := fullText_xtoks (isPrint := isPrint) hh hx ht ha quiescent_nl
  rwa [show xtext (margins (indentOf o) o.tabs) [.nl 0] = ['\n'] by simp [xtext, margins_zero]] at this

/-! ## The trimmed text -/

/-- The blocks of external builders do not end in white space. -/
def NoBlankBlocks (xb : Directive → Option XBlock) (ds : List Directive) : Prop :=
  ∀ d, Within d ds → ∀ b, xb d = some b → ∀ c, b.body.getLast? = some c → isSpaceRune c = false

/-- The text of the pieces of a tree does not end in white space. -/
theorem xpieces_last {mg : Nat → Str} : ∀ (ds : List Directive) (last : Int), XTreeOk ext hd xb ds → NoBlankBlocks xb ds → NoBlankEnd ds →
    ∀ c, (xtext mg (xpieces hd xb 0 last ds)).getLast? = some c → isSpaceRune c = false := by
  intro ds
  induction ds with
  | nil => intro last _ _ _ c hc; simp [xpieces, xtext] at hc
  | cons d ds ih =>
    intro last ht hbb h c hc
    have htail : NoBlankEnd ds := fun a x e => h (d :: a) x (by rw [e]; rfl)
    have hbt : NoBlankBlocks xb ds := fun x hx => hbb x (Within.mono hx (fun _ hm => List.mem_cons_of_mem _ hm))
    have hne : ∀ (last : Int) (x : Directive) (xs : List Directive), (xtext mg (xpieces hd xb 0 last (x :: xs))).getLast? ≠ none := by
      intro last x xs hn
      rw [List.getLast?_eq_none_iff, xpieces] at hn
      split at hn <;> simp [xtext, unlex, Item.text] at hn
    have hend : ds = [] → IsComment d → ∀ x, ('#' :: d.comment.getD []).getLast? = some x → isSpaceRune x = false := by
      rintro rfl hic x hx
      cases hd : d.comment.getD [] with
      | nil => rw [hd] at hx; cases hx; rfl
      | cons y ys =>
        rw [hd, List.getLast?_cons_cons] at hx
        exact h [] d rfl hic x (by rw [hd]; exact hx)
    rw [xpieces] at hc
    by_cases hon : CommentOn d last
    · rw [if_pos hon, xtext, xtext, List.getLast?_append, List.getLast?_append] at hc
      cases ds with
      | nil =>
        rw [show (xtext mg (xpieces hd xb 0 last [])).getLast? = none by simp [xpieces, xtext], Option.none_or] at hc
        cases hx : ('#' :: d.comment.getD []).getLast? with
        | none => simp at hx
        | some x => rw [hx] at hc; simp at hc; subst hc; exact hend rfl ⟨hon.1, hon.2.1⟩ x hx
      | cons y ys =>
        cases hl : (xtext mg (xpieces hd xb 0 last (y :: ys))).getLast? with
        | some x => rw [hl] at hc; simp at hc; subst hc; exact ih last ht.tail hbt htail x hl
        | none => exact absurd hl (hne _ _ _)
    · rw [if_neg hon, xtext, xtext_append, ← List.append_assoc, List.getLast?_append] at hc
      generalize (if (xb d).isSome = true then last else d.line) = last' at hc
      cases ds with
      | cons y ys =>
        cases hl : (xtext mg (xpieces hd xb 0 last' (y :: ys))).getLast? with
        | some x => rw [hl] at hc; simp at hc; subst hc; exact ih last' ht.tail hbt htail x hl
        | none => exact absurd hl (hne _ _ _)
      | nil =>
        rw [show (xtext mg (xpieces hd xb 0 last' [])).getLast? = none by simp [xpieces, xtext], Option.none_or, List.getLast?_append] at hc
        rcases ht d (.here (List.mem_cons_self ..)) with ⟨hic, hx, -⟩ | ⟨hic, hx, -⟩ | ⟨hic, -, b, hx, hb, -⟩
        · rw [xpiecesDir_comment hic hx, xtext, xtext, List.append_nil] at hc
          cases hx : ('#' :: d.comment.getD []).getLast? with
          | none => simp at hx
          | some x => rw [hx] at hc; simp at hc; subst hc; exact hend rfl hic x hx
        · rw [xpiecesDir_other hic hx] at hc
          cases hb : d.block with
          | none =>
            rw [hb, xpiecesBlock, xtext, xtext, unlex_append, List.append_nil] at hc
            simp [unlex, Item.text] at hc
            subst hc; decide
          | some b =>
            have e : ∀ head : List Item, xtext mg (.code head :: (xpieces hd xb (0 + 1) d.line b ++ [.nl 0, .code [.special '}']])) =
                (unlex head ++ (xtext mg (xpieces hd xb (0 + 1) d.line b) ++ ('\n' :: mg 0))) ++ ['}'] := by
              intro head; simp [xtext, xtext_append, unlex, Item.text]
            rw [hb, xpiecesBlock, e, List.getLast?_append] at hc
            simp at hc
            subst hc; decide
        · rw [xpiecesDir_ext hx, xtext, xtext, List.append_nil, XBlock.text, show b.name ++ b.sep :: b.body = (b.name ++ [b.sep]) ++ b.body by simp,
            List.getLast?_append] at hc
          cases hl : b.body.getLast? with
          | none => exact absurd hl hb.ends.1
          | some x =>
            rw [hl] at hc; simp at hc; subst hc
            exact hbb d (.here (List.mem_cons_self ..)) b hx x hl

/-- The last character of the text of a tree is no white space. -/
theorem bodyText_xlast {isPrint : Char → Bool} {o : BuildOptions} {ds : List Directive} (hx : XText (Enquote isPrint) (buildSetup o).ext hd xb ds)
    (ht : XTreeOk ext hd xb ds) (hbb : NoBlankBlocks xb ds) (he : NoBlankEnd ds) :
    (ds ≠ [] → bodyText isPrint o ds ≠ []) ∧ ∀ c, (bodyText isPrint o ds).getLast? = some c → isSpaceRune c = false := by
  rw [bodyText_pieces hx ht]
  have hl := xpieces_last (mg := margins (indentOf o) o.tabs) ds 0 ht hbb he
  rcases xfilePieces_cases (hd := hd) (xb := xb) ds with ⟨e, h1⟩ | ⟨e, d, r, rfl, h2⟩
  · rw [← e]
    refine ⟨fun hn => ?_, hl⟩
    rcases h1 with h1 | ⟨d, r, rfl, hc⟩
    · exact absurd h1 hn
    · rw [xpieces, if_pos hc]; simp [xtext]
  · have e2 := e
    rw [xpieces, if_neg h2] at e2
    have hne : xtext (margins (indentOf o) o.tabs) (xfilePieces hd xb (d :: r)) ≠ [] := by
      rw [← (List.cons.inj e2).2, xtext_append]
      rcases ht d (.here (List.mem_cons_self ..)) with ⟨hic, hx, -⟩ | ⟨hic, hx, -⟩ | ⟨hic, -, b, hx, hb, -⟩
      · rw [xpiecesDir_comment hic hx]; simp [xtext]
      · rw [xpiecesDir_other hic hx]
        cases d.block <;> simp [xpiecesBlock, xtext, unlex, Item.text]
      · rw [xpiecesDir_ext hx]; simp [xtext, XBlock.text]
    refine ⟨fun _ => hne, fun c hc => hl c ?_⟩
    rw [e, xtext, margins_zero, List.getLast?_append, hc]
    rfl

/-- The header alone, as `BuildFiles` writes it for an empty file. -/
theorem header_lines (hh : ∀ r, ext ('#' :: r) = none) : lexWith ext (headerTrimmed ++ ['\n']) = headerToks := by
  have h := loop_pieces (ext := ext) (mg := fun _ => []) (fun _ _ h => by simp at h) hh _
    [.comment c!" This config was built from JSON using NGINX crossplane.", .nl 0, .comment c!" If you encounter any bugs please report them here:", .nl 0,
      .comment c!" https://github.com/nginxinc/crossplane/issues", .nl 0] (Nat.le_refl _) (f := true) ready_init (fun _ => rfl)
    ⟨⟨by decide +kernel, by decide +kernel⟩, Or.inr ⟨_, _, rfl⟩, ⟨by decide +kernel, by decide +kernel⟩, Or.inr ⟨_, _, rfl⟩, ⟨by decide +kernel, by decide +kernel⟩,
      Or.inr ⟨_, _, rfl⟩, trivial⟩
  have e : xtext (fun _ => []) [.comment c!" This config was built from JSON using NGINX crossplane.", .nl 0, .comment c!" If you encounter any bugs please report them here:", .nl 0,
      .comment c!" https://github.com/nginxinc/crossplane/issues", .nl 0] = headerTrimmed ++ ['\n'] := by decide +kernel
  rw [e] at h
  refine h.trans ?_
  decide +kernel

/-- The tokens of the trimmed text with a line feed. -/
theorem trimmed_xtoks {isPrint : Char → Bool} {o : BuildOptions} {cfg : Config} (hh : ∀ r, ext ('#' :: r) = none)
    (hx : XText (Enquote isPrint) (buildSetup o).ext hd xb cfg.parsed) (ht : XTreeOk ext hd xb cfg.parsed) (ha : CommentsApart cfg.parsed)
    (hbb : NoBlankBlocks xb cfg.parsed) (he : NoBlankEnd cfg.parsed) {t : Str} (htr : Trimmed (fullText isPrint o cfg) t) :
    Toks hd (headerDirs o ++ cfg.parsed) (lexWith ext (t ++ ['\n'])) := by
  obtain ⟨h1, h2⟩ := bodyText_xlast (isPrint := isPrint) hx ht hbb he
  by_cases hn : cfg.parsed = []
  · have hbody : bodyText isPrint o cfg.parsed = [] := by rw [hn]; rfl
    cases hh' : o.header with
    | false =>
      have e : fullText isPrint o cfg = [] := by unfold fullText; rw [hbody, hh']; rfl
      have := fullText_nl_xtoks (isPrint := isPrint) hh hx ht ha
      rw [e] at htr this
      rwa [htr.self (by simp)]
    | true =>
      have e : fullText isPrint o cfg = header := by unfold fullText; rw [hbody, hh', if_pos rfl, List.append_nil]
      rw [e] at htr
      rw [htr.unique header_trimmed, hn, List.append_nil, header_lines hh]
      unfold headerDirs
      rw [if_pos hh']
      have hc : ∀ t : Str, IsComment (commentDir t) := fun t => ⟨rfl, by simp [commentDir]⟩
      exact Toks.comment (line := 1) (hc _) (Toks.comment (line := 2) (hc _) (Toks.comment (line := 3) (hc _) Toks.nil))
  · have : t = fullText isPrint o cfg := by
      refine htr.self ?_
      intro c hc
      unfold fullText at hc
      rw [List.getLast?_append] at hc
      cases hx : (bodyText isPrint o cfg.parsed).getLast? with
      | none => exact absurd (List.getLast?_eq_none_iff.mp hx) (h1 hn)
      | some x => rw [hx] at hc; cases hc; exact h2 _ hx
    rw [this]
    exact fullText_nl_xtoks hh hx ht ha

end

end Verif
