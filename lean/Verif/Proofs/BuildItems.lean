import Verif.Props.Build
import Verif.Props.Enquote
import Verif.Spec.Placed
import Verif.Proofs.Combine
/-!
# The built text as lexical items
-/
namespace Verif
open Spec

/-- The units of a text and the single backslash that may be left at its end. -/
def cunits : Str → List U × Str
  | [] => ([], [])
  | [c] => if c = '\\' then ([], ['\\']) else ([.plain c], [])
  | c :: x :: s =>
    if c = '\\' then (.esc x :: (cunits s).1, (cunits s).2) else (.plain c :: (cunits (x :: s)).1, (cunits (x :: s)).2)

theorem cunits_spec (n : Nat) : ∀ s : Str, s.length ≤ n → textOf (cunits s).1 ++ (cunits s).2 = s ∧ Dangling (cunits s).2 ∧
    ∀ u ∈ (cunits s).1, u.char ∈ s ∧ (∀ c, u = .plain c → c ≠ '\\') := by
  induction n with
  | zero =>
    intro s hn
    obtain rfl : s = [] := List.length_eq_zero_iff.mp (Nat.le_zero.mp hn)
    exact ⟨rfl, Or.inl rfl, by simp [cunits]⟩
  | succ n ih =>
    intro s hn
    match s with
    | [] => exact ⟨rfl, Or.inl rfl, by simp [cunits]⟩
    | [c] =>
      unfold cunits
      by_cases h : c = '\\'
      · subst h; exact ⟨rfl, Or.inr rfl, by simp⟩
      · rw [if_neg h]; exact ⟨rfl, Or.inl rfl, by simp [U.char, h]⟩
    | c :: x :: s =>
      unfold cunits
      by_cases h : c = '\\'
      · subst h
        obtain ⟨h1, h2, h3⟩ := ih s (by simp at hn; omega)
        rw [if_pos rfl]
        refine ⟨by rw [textOf_cons]; simp [U.text, h1], h2, ?_⟩
        intro u hu
        rcases List.mem_cons.mp hu with rfl | hu
        · simp [U.char]
        · obtain ⟨h4, h5⟩ := h3 u hu
          exact ⟨by simp [h4], h5⟩
      · obtain ⟨h1, h2, h3⟩ := ih (x :: s) (by simp at hn ⊢; omega)
        rw [if_neg h]
        refine ⟨by rw [textOf_cons, List.append_assoc, h1]; rfl, h2, ?_⟩
        intro u hu
        rcases List.mem_cons.mp hu with rfl | hu
        · simp [U.char, h]
        · obtain ⟨h4, h5⟩ := h3 u hu
          exact ⟨List.mem_cons_of_mem _ h4, h5⟩

/-- A text that can be a comment. -/
def CommentOk (c : Str) : Prop := '\n' ∉ c ∧ '\r' ∉ c

theorem cunits_wf {c : Str} (h : CommentOk c) : ∀ u ∈ (cunits c).1, u.wf ∧ u.char ≠ '\n' := by
  intro u hu
  obtain ⟨-, -, h3⟩ := cunits_spec c.length c (Nat.le_refl _)
  obtain ⟨h4, h5⟩ := h3 u hu
  have hr : u.char ≠ '\r' := fun e => h.2 (e ▸ h4)
  refine ⟨?_, fun e => h.1 (e ▸ h4)⟩
  cases u with
  | plain x => exact ⟨h5 x rfl, hr⟩
  | esc x => exact hr

/-- The pieces of a text: code, the texts of comments, and line feeds with the depth of the line after them. -/
inductive Piece where
  | code (is : List Item)
  | comment (c : Str)
  | nl (depth : Nat)

/-- The text of pieces. -/
def ptext (mg : Nat → Str) : List Piece → Str
  | [] => []
  | .code is :: ps => unlex is ++ ptext mg ps
  | .comment c :: ps => '#' :: c ++ ptext mg ps
  | .nl d :: ps => '\n' :: mg d ++ ptext mg ps

theorem ptext_append (mg : Nat → Str) (a b : List Piece) : ptext mg (a ++ b) = ptext mg a ++ ptext mg b := by
  induction a with
  | nil => rfl
  | cons p a ih => cases p <;> simp [ptext, ih]

/-- The items of pieces. -/
def toItems (mg : Nat → Str) : List Piece → List Item
  | [] => []
  | .code is :: ps => is ++ toItems mg ps
  | .nl d :: ps => .space '\n' :: ((mg d).map .space ++ toItems mg ps)
  | .comment c :: .nl d :: ps => .comment (cunits c).1 (if (cunits c).2 = [] then .nl else .escNl) :: ((mg d).map .space ++ toItems mg ps)
  | .comment c :: _ => [.comment (cunits c).1 .eof]

/-- The backslash left at the end. -/
def leftover : List Piece → Str
  | [] => []
  | [.comment c] => (cunits c).2
  | _ :: ps => leftover ps

/-- A line ends here. -/
def Flush (ps : List Piece) : Prop := ps = [] ∨ ∃ d r, ps = .nl d :: r

/-- Items after which anything may follow. -/
def Closed (is : List Item) : Prop := ∀ rest, WF rest → WF (is ++ rest)

/-- Every comment ends with its line. -/
def PiecesOk : List Piece → Prop
  | [] => True
  | .code is :: ps => Closed is ∧ PiecesOk ps
  | .nl _ :: ps => PiecesOk ps
  | .comment c :: ps => CommentOk c ∧ Flush ps ∧ PiecesOk ps

/-- A margin: blanks or tabs. -/
def MarginOk (mg : Nat → Str) : Prop := ∀ d, ∀ c ∈ mg d, c = ' ' ∨ c = '\t'

theorem unlex_append (a b : List Item) : unlex (a ++ b) = unlex a ++ unlex b := by simp [unlex]

theorem unlex_space (s : Str) : unlex (s.map .space) = s := by
  induction s with
  | nil => rfl
  | cons c s ih => rw [List.map_cons, unlex_cons, ih]; rfl

theorem wf_space {s : Str} (h : ∀ c ∈ s, c = ' ' ∨ c = '\t') {rest : List Item} (hr : WF rest) : WF (s.map .space ++ rest) := by
  induction s with
  | nil => exact hr
  | cons c s ih =>
    refine ⟨?_, ?_, ih (fun x hx => h x (by simp [hx]))⟩
    · rcases h c (by simp) with rfl | rfl <;> decide
    · rcases h c (by simp) with rfl | rfl <;> decide

theorem leftover_cons {p : Piece} {ps : List Piece} (h : (∀ c, p ≠ .comment c) ∨ ps ≠ []) : leftover (p :: ps) = leftover ps := by
  cases p with
  | comment c =>
    cases ps with
    | nil => simp at h
    | cons q ps => rfl
  | code is => rfl
  | nl d => rfl

theorem leftover_dangling (ps : List Piece) : Dangling (leftover ps) := by
  induction ps with
  | nil => exact Or.inl rfl
  | cons p ps ih =>
    by_cases h : (∀ c, p ≠ .comment c) ∨ ps ≠ []
    · rw [leftover_cons h]; exact ih
    · simp only [not_or, not_forall, not_not] at h
      obtain ⟨⟨c, rfl⟩, rfl⟩ := h
      exact (cunits_spec c.length c (Nat.le_refl _)).2.1

theorem toItems_text (mg : Nat → Str) (n : Nat) : ∀ ps : List Piece, ps.length ≤ n → PiecesOk ps → unlex (toItems mg ps) ++ leftover ps = ptext mg ps := by
  induction n with
  | zero =>
    intro ps hn _
    obtain rfl : ps = [] := List.length_eq_zero_iff.mp (Nat.le_zero.mp hn)
    rfl
  | succ n ih =>
    intro ps hn h
    cases ps with
    | nil => rfl
    | cons p ps =>
      have hlen : ps.length ≤ n := by simpa using hn
      cases p with
      | code is =>
        rw [toItems, leftover_cons (Or.inl (by simp)), ptext, unlex_append, List.append_assoc, ih ps hlen h.2]
      | nl d =>
        rw [toItems, leftover_cons (Or.inl (by simp)), ptext, unlex_cons, unlex_append, unlex_space, ← ih ps hlen h]
        simp [Item.text]
      | comment c =>
        obtain ⟨hc, hf, hps⟩ := h
        obtain ⟨h1, h2, -⟩ := cunits_spec c.length c (Nat.le_refl _)
        rcases hf with rfl | ⟨d, r, rfl⟩
        · simp [toItems, leftover, ptext, unlex, Item.text, CommentEnd.text, h1]
        · have hr := ih r (by simp at hlen; omega) hps
          rw [leftover_cons (Or.inr (by simp)), leftover_cons (Or.inl (by simp)), toItems, ptext, ptext, unlex_cons, unlex_append, unlex_space, ← hr]
          by_cases he : (cunits c).2 = []
          · rw [he, List.append_nil] at h1
            simp [he, Item.text, CommentEnd.text, h1]
          · rcases h2 with h2 | h2
            · exact absurd h2 he
            · rw [h2] at h1
              rw [if_neg he]
              conv_rhs => rw [← h1]
              simp [Item.text, CommentEnd.text]

theorem toItems_wf {mg : Nat → Str} (hm : MarginOk mg) (n : Nat) : ∀ ps : List Piece, ps.length ≤ n → PiecesOk ps → WF (toItems mg ps) := by
  induction n with
  | zero =>
    intro ps hn _
    obtain rfl : ps = [] := List.length_eq_zero_iff.mp (Nat.le_zero.mp hn)
    trivial
  | succ n ih =>
    intro ps hn h
    cases ps with
    | nil => trivial
    | cons p ps =>
      have hlen : ps.length ≤ n := by simpa using hn
      cases p with
      | code is => exact h.1 _ (ih ps hlen h.2)
      | nl d => exact ⟨by decide, by decide, wf_space (hm d) (ih ps hlen h)⟩
      | comment c =>
        obtain ⟨hc, hf, hps⟩ := h
        rcases hf with rfl | ⟨d, r, rfl⟩
        · exact ⟨cunits_wf hc, fun _ => rfl, trivial⟩
        · rw [toItems]
          refine ⟨cunits_wf hc, ?_, wf_space (hm d) (ih r (by simp at hlen; omega) hps)⟩
          by_cases he : (cunits c).2 = [] <;> simp [he]

/-- The tokens of the text of pieces. -/
theorem lex_pieces {mg : Nat → Str} (hm : MarginOk mg) {ps : List Piece} (h : PiecesOk ps) : lex (ptext mg ps) = toksOf (toItems mg ps) := by
  rw [← toItems_text mg ps.length ps (Nat.le_refl _) h, lex_items (toItems_wf hm ps.length ps (Nat.le_refl _) h) (leftover_dangling ps)]

/-! ## Pieces of a tree -/

mutual
/-- The pieces of directives; `hd` are the items of the names and arguments. -/
def pieces (hd : Str → List Str → List Item) (depth : Nat) (last : Int) : List Directive → List Piece
  | [] => []
  | d :: ds =>
    if CommentOn d last then .code [.space ' '] :: .comment (d.comment.getD []) :: pieces hd depth last ds
    else .nl depth :: (piecesDir hd depth d ++ pieces hd depth d.line ds)
def piecesDir (hd : Str → List Str → List Item) (depth : Nat) : Directive → List Piece
  | ⟨dd, dl, dargs, _, _, dblock, dcomm, _⟩ =>
    match (if dd = c!"#" then dcomm else none) with
    | some text => [.comment text]
    | none => piecesBlock hd depth (hd dd dargs) dl dblock
def piecesBlock (hd : Str → List Str → List Item) (depth : Nat) (head : List Item) (line : Int) : Option (List Directive) → List Piece
  | none => [.code (head ++ [.special ';'])]
  | some ds => .code (head ++ [.space ' ', .special '{']) :: (pieces hd (depth + 1) line ds ++ [.nl depth, .code [.special '}']])
end

/-- No directive is built by an external builder. -/
def noBuilders : Str → Option (Directive → Str) := fun _ => none

mutual
theorem pieces_text (quote : Str → Str) (hd : Str → List Str → List Item) (o : BuildOptions) (depth : Nat) (last : Int) : (ds : List Directive) →
    (∀ d, Within d ds → ¬ IsComment d → unlex (hd d.directive d.args) = headText quote d.directive d.args) →
    ptext (marginOf o) (pieces hd depth last ds) = (layout quote noBuilders depth last ds).1 ++ moreLines o (layout quote noBuilders depth last ds).2
  | [], _ => rfl
  | d :: ds, h => by
    have h2 : ∀ x, Within x ds → ¬ IsComment x → unlex (hd x.directive x.args) = headText quote x.directive x.args :=
      fun x hx => h x (Within.mono hx (fun _ hm => List.mem_cons_of_mem _ hm))
    unfold pieces layout
    by_cases hc : CommentOn d last
    · rw [if_pos hc, if_pos hc, ptext, ptext, pieces_text quote hd o depth last ds h2]
      simp [unlex, Item.text]
    · rw [if_neg hc, if_neg hc, ptext, ptext_append, pieces_text quote hd o depth d.line ds h2]
      have hdir := piecesDir_text quote hd o depth d (fun x hx => h x (Within.mono hx (by simp)))
      have hn : (if (noBuilders (quote d.directive)).isSome = true then last else d.line) = d.line := rfl
      simp only [hn, List.nil_append, moreLines_append, layoutDir_tail, hdir]
      simp
theorem piecesDir_text (quote : Str → Str) (hd : Str → List Str → List Item) (o : BuildOptions) (depth : Nat) : (d : Directive) →
    (∀ x, Within x [d] → ¬ IsComment x → unlex (hd x.directive x.args) = headText quote x.directive x.args) →
    moreLines o (layoutDir quote noBuilders depth [] d) = '\n' :: marginOf o depth ++ ptext (marginOf o) (piecesDir hd depth d)
  | ⟨dd, dl, dargs, df, dincl, dblock, dcomm, dmap⟩, h => by
    unfold piecesDir layoutDir
    simp only [noBuilders]
    cases hc : (if dd = c!"#" then dcomm else none) with
    | some text => simp [moreLines, render_eq, ptext]
    | none =>
      simp only
      have hn : ¬ IsComment ⟨dd, dl, dargs, df, dincl, dblock, dcomm, dmap⟩ := by
        rintro ⟨h1, h2⟩
        simp only at h1 h2
        rw [if_pos h1] at hc
        exact h2 hc
      exact piecesBlock_text quote hd o depth dd dargs dl dblock (h _ (.here (List.mem_singleton.mpr rfl)) hn)
        (fun ds hb x hx => h x (.deep (List.mem_singleton.mpr rfl) hb hx))
theorem piecesBlock_text (quote : Str → Str) (hd : Str → List Str → List Item) (o : BuildOptions) (depth : Nat) (name : Str) (args : List Str)
    (line : Int) : (b : Option (List Directive)) → unlex (hd name args) = headText quote name args →
    (∀ ds, b = some ds → ∀ x, Within x ds → ¬ IsComment x → unlex (hd x.directive x.args) = headText quote x.directive x.args) →
    moreLines o (layoutBlock quote noBuilders depth [] (headText quote name args) line b) =
      '\n' :: marginOf o depth ++ ptext (marginOf o) (piecesBlock hd depth (hd name args) line b)
  | none, hh, _ => by
    have e : unlex [.special ';'] = c!";" := rfl
    simp [layoutBlock, piecesBlock, moreLines, render_eq, ptext, unlex_append, hh, e]
  | some ds, hh, h => by
    unfold layoutBlock piecesBlock
    have := pieces_text quote hd o (depth + 1) line ds (h ds rfl)
    rw [ptext, ptext_append, this, unlex_append, hh]
    simp [moreLines_cons, moreLines_append, render_eq, ptext, unlex, Item.text, moreLines]
end

end Verif
