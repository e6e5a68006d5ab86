import Verif.Proofs.BuildItems
/-!
# The tokens of the built text
-/
namespace Verif
open Spec

instance (d : Directive) : Decidable (IsComment d) := by unfold IsComment; infer_instance

/-! ## Values -/

/-- The values of the words and strings among items, with whether they are quoted. -/
def itemVals : List Item → List (Str × Bool)
  | [] => []
  | .word us :: is => (textOf us, false) :: itemVals is
  | .quoted q us _ :: is => (quotedValue q us, true) :: itemVals is
  | _ :: is => itemVals is

theorem itemVals_append (a b : List Item) : itemVals (a ++ b) = itemVals a ++ itemVals b := by
  induction a with
  | nil => rfl
  | cons i a ih => cases i <;> simp [itemVals, ih]

/-- Words, closed strings and white space. -/
def Simple : Item → Prop
  | .word _ => True
  | .quoted _ _ closed => closed = true
  | .space _ => True
  | _ => False

/-- Tokens with these values. -/
def Vals (toks : List Tok) (vals : List (Str × Bool)) : Prop := toks.map (fun t => (t.value, t.quoted, t.error)) = vals.map fun v => (v.1, v.2, none)

theorem specToks_simple {is : List Item} (h : ∀ i ∈ is, Simple i) (line start : Int) (D : Nat) (dup g : Bool) (rest : List Item) :
    ∃ (toks : List Tok) (line' start' : Int) (g' : Bool), Vals toks (itemVals is) ∧
      specToks line start D dup g (is ++ rest) = toks ++ specToks line' start' D (if itemVals is = [] then dup else false) g' rest := by
  induction is generalizing line start dup g with
  | nil => exact ⟨[], line, start, g, rfl, rfl⟩
  | cons i is ih =>
    have ih := ih (fun j hj => h j (by simp [hj]))
    have hi := h i (by simp)
    cases i with
    | space c =>
      obtain ⟨toks, l, s, g', h1, h2⟩ := ih (line + nls [c]) start dup false
      exact ⟨toks, l, s, g', h1, by rw [List.cons_append, specToks, h2]; rfl⟩
    | word us =>
      obtain ⟨toks, l, s, g', h1, h2⟩ := ih (line + nls (textOf us)) (wordLine line us) false true
      refine ⟨⟨textOf us, wordLine line us, false, none⟩ :: toks, l, s, g', ?_, ?_⟩
      · simp only [Vals, List.map_cons, itemVals, List.cons.injEq, true_and]; exact h1
      · rw [List.cons_append, specToks, h2]; simp [itemVals]
    | quoted q us closed =>
      obtain rfl : closed = true := hi
      obtain ⟨toks, l, s, g', h1, h2⟩ := ih (line + nls (textOf us)) line false false
      refine ⟨⟨quotedValue q us, line, true, none⟩ :: toks, l, s, g', ?_, ?_⟩
      · simp only [Vals, List.map_cons, itemVals, List.cons.injEq, true_and]; exact h1
      · rw [List.cons_append, specToks, h2]; simp [itemVals]
    | special c => exact hi.elim
    | comment us e => exact hi.elim

/-- What is needed of the items of the head of a directive. -/
structure HeadOk (is : List Item) : Prop where
  simple : ∀ i ∈ is, Simple i
  some : itemVals is ≠ []
  noComment : ∀ v ∈ itemVals is, ¬ (v.2 = false ∧ ∃ t, v.1 = '#' :: t)
  noMark : ∀ v ∈ itemVals is, v.2 = false → v.1 ≠ c!";" ∧ v.1 ≠ c!"{" ∧ v.1 ≠ c!"}"
  closed : ∀ rest, WF rest → (∀ b, wordEnd (.out b) rest) → WF (is ++ rest)

/-- What is needed of a tree. -/
def TreeOk (hd : Str → List Str → List Item) (ds : List Directive) : Prop :=
  ∀ d, Within d ds → (IsComment d ∧ CommentOk (d.comment.getD [])) ∨ (¬ IsComment d ∧ HeadOk (hd d.directive d.args))

/-- The directives of a file, or of a block. -/
def Siblings (l ds : List Directive) : Prop := l = ds ∨ ∃ d, Within d ds ∧ d.block = some l

/-- No two comments, one right after the other, have the same line. -/
def CommentsApart (ds : List Directive) : Prop :=
  ∀ l, Siblings l ds → ∀ a x y b, l = a ++ x :: y :: b → IsComment x → IsComment y → x.line ≠ y.line

theorem TreeOk.tail {hd : Str → List Str → List Item} {d : Directive} {ds : List Directive} (h : TreeOk hd (d :: ds)) : TreeOk hd ds :=
  fun x hx => h x (Within.mono hx (fun _ hm => List.mem_cons_of_mem _ hm))

theorem TreeOk.block {hd : Str → List Str → List Item} {d : Directive} {b ds : List Directive} (h : TreeOk hd (d :: ds)) (hb : d.block = some b) : TreeOk hd b :=
  fun x hx => h x (.deep (List.mem_cons_self ..) hb hx)

theorem CommentsApart.tail {d : Directive} {ds : List Directive} (h : CommentsApart (d :: ds)) : CommentsApart ds := by
  intro l hl a x y b e
  rcases hl with rfl | ⟨d', hw, hb⟩
  · exact h (d :: l) (Or.inl rfl) (d :: a) x y b (by rw [e]; rfl)
  · exact h l (Or.inr ⟨d', Within.mono hw (fun _ hm => List.mem_cons_of_mem _ hm), hb⟩) a x y b e

theorem CommentsApart.block {d : Directive} {b ds : List Directive} (h : CommentsApart (d :: ds)) (hb : d.block = some b) : CommentsApart b := by
  intro l hl a x y r e
  rcases hl with rfl | ⟨d', hw, hb'⟩
  · exact h l (Or.inr ⟨d, .here (List.mem_cons_self ..), hb⟩) a x y r e
  · exact h l (Or.inr ⟨d', .deep (List.mem_cons_self ..) hb hw, hb'⟩) a x y r e

/-- After a comment there is the end of the line. -/
theorem CommentsApart.flush {hd : Str → List Str → List Item} {depth : Nat} {d : Directive} {ds : List Directive} (h : CommentsApart (d :: ds))
    (hc : IsComment d) {last : Int} (hl : last = d.line) {rest : List Piece} (hr : Flush rest) : Flush (pieces hd depth last ds ++ rest) := by
  cases ds with
  | nil => exact hr
  | cons y ds =>
    unfold pieces
    rw [if_neg]
    · exact Or.inr ⟨_, _, rfl⟩
    · rintro ⟨h1, h2, h3⟩
      exact h _ (Or.inl rfl) [] d y ds rfl hc ⟨h1, h2⟩ (by rw [h3, hl])

theorem closed_space : Closed [.space ' '] := fun _ h => ⟨by decide, by decide, h⟩
theorem closed_brace : Closed [.special '}'] := fun _ h => ⟨by decide, h⟩
theorem HeadOk.closed_semi {is : List Item} (h : HeadOk is) : Closed (is ++ [.special ';']) := by
  intro rest hr
  rw [List.append_assoc]
  exact h.closed _ ⟨by decide, hr⟩ (fun b => by simp [wordEnd])
theorem HeadOk.closed_open {is : List Item} (h : HeadOk is) : Closed (is ++ [.space ' ', .special '{']) := by
  intro rest hr
  rw [List.append_assoc]
  exact h.closed _ ⟨by decide, by decide, by decide, hr⟩ (fun b => by simp [wordEnd])

theorem piecesDir_comment {hd : Str → List Str → List Item} {depth : Nat} {d : Directive} (h : IsComment d) :
    piecesDir hd depth d = [.comment (d.comment.getD [])] := by
  obtain ⟨dd, dl, dargs, df, dincl, dblock, dcomm, dmap⟩ := d
  obtain ⟨h1, h2⟩ := h
  simp only at h1 h2
  unfold piecesDir
  rw [if_pos h1]
  cases dcomm with
  | none => exact absurd rfl h2
  | some c => rfl

theorem piecesDir_other {hd : Str → List Str → List Item} {depth : Nat} {d : Directive} (h : ¬ IsComment d) :
    piecesDir hd depth d = piecesBlock hd depth (hd d.directive d.args) d.line d.block := by
  obtain ⟨dd, dl, dargs, df, dincl, dblock, dcomm, dmap⟩ := d
  unfold piecesDir
  have : (if dd = c!"#" then dcomm else none) = none := by
    by_cases h1 : dd = c!"#"
    · rw [if_pos h1]
      by_cases h2 : dcomm = none
      · exact h2
      · exact absurd ⟨h1, h2⟩ h
    · rw [if_neg h1]
  rw [this]

theorem pieces_ok {hd : Str → List Str → List Item} (ds : List Directive) : ∀ (depth : Nat) (last : Int) (rest : List Piece), TreeOk hd ds → CommentsApart ds →
    Flush rest → PiecesOk rest → PiecesOk (pieces hd depth last ds ++ rest) := by
  induction ds using listInd with
  | h0 => intro depth last rest _ _ _ h; exact h
  | h1 d ds ihb ih =>
    intro depth last rest ht ha hf hp
    have hd' := ht d (.here (List.mem_cons_self ..))
    unfold pieces
    by_cases hc : CommentOn d last
    · rw [if_pos hc]
      have hic : IsComment d := ⟨hc.1, hc.2.1⟩
      refine ⟨closed_space, ?_, ha.flush hic hc.2.2.symm hf, ih depth last rest ht.tail ha.tail hf hp⟩
      rcases hd' with ⟨-, h⟩ | ⟨h, -⟩
      · exact h
      · exact absurd hic h
    · rw [if_neg hc]
      rw [List.cons_append, List.append_assoc]
      show PiecesOk _
      have hrest := ih depth d.line rest ht.tail ha.tail hf hp
      rcases hd' with ⟨hic, h⟩ | ⟨hic, h⟩
      · rw [piecesDir_comment hic]
        exact ⟨h, ha.flush hic rfl hf, hrest⟩
      · rw [piecesDir_other hic]
        cases hb : d.block with
        | none => exact ⟨h.closed_semi, hrest⟩
        | some b =>
          unfold piecesBlock
          rw [List.cons_append, List.append_assoc]
          refine ⟨h.closed_open, ihb b hb (depth + 1) d.line _ (ht.block hb) (ha.block hb) (Or.inr ⟨_, _, rfl⟩) ?_⟩
          exact ⟨closed_brace, hrest⟩

/-- The tokens of a tree, by the values of the heads. -/
inductive Toks (hd : Str → List Str → List Item) : List Directive → List Tok → Prop
  | nil : Toks hd [] []
  | comment {d : Directive} {ds toks} {line : Int} : IsComment d → Toks hd ds toks →
      Toks hd (d :: ds) (⟨'#' :: textOf (cunits (d.comment.getD [])).1, line, false, none⟩ :: toks)
  | simple {d : Directive} {ds hs toks} {line : Int} : ¬ IsComment d → Vals hs (itemVals (hd d.directive d.args)) → d.block = none → Toks hd ds toks →
      Toks hd (d :: ds) (hs ++ ⟨c!";", line, false, none⟩ :: toks)
  | block {d : Directive} {b ds hs inner toks} {l1 l2 : Int} : ¬ IsComment d → Vals hs (itemVals (hd d.directive d.args)) → d.block = some b →
      Toks hd b inner → Toks hd ds toks →
      Toks hd (d :: ds) (hs ++ ⟨c!"{", l1, false, none⟩ :: (inner ++ ⟨c!"}", l2, false, none⟩ :: toks))

theorem specToks_margin {s : Str} (h : ∀ c ∈ s, c = ' ' ∨ c = '\t') (line start : Int) (D : Nat) (dup : Bool) (rest : List Item) :
    specToks line start D dup false (s.map .space ++ rest) = specToks line start D dup false rest := by
  induction s with
  | nil => rfl
  | cons c s ih =>
    have hn : nls [c] = 0 := by rcases h c (by simp) with rfl | rfl <;> rfl
    rw [List.map_cons, List.cons_append, specToks, hn, Int.add_zero, ih (fun x hx => h x (by simp [hx]))]

theorem specToks_comment {mg : Nat → Str} (hm : MarginOk mg) (c : Str) (ps : List Piece) (hf : Flush ps) (line start : Int) (D : Nat) (dup : Bool) :
    specToks line start D dup false (toItems mg (.comment c :: ps)) =
      ⟨'#' :: textOf (cunits c).1, line, false, none⟩ :: specToks line line D dup false (toItems mg ps) := by
  rcases hf with rfl | ⟨d, r, rfl⟩
  · simp [toItems, specToks, CommentEnd.text, nls]
  · rw [toItems, toItems, specToks, specToks, specToks_margin (hm d), specToks_margin (hm d)]
    by_cases he : (cunits c).2 = [] <;> simp [he, CommentEnd.text, nls]

theorem specToks_nl {mg : Nat → Str} (hm : MarginOk mg) (d : Nat) (ps : List Piece) (line start : Int) (D : Nat) (dup : Bool) :
    specToks line start D dup false (toItems mg (.nl d :: ps)) = specToks (line + 1) start D dup false (toItems mg ps) := by
  rw [toItems, specToks, specToks_margin (hm d)]
  rfl

theorem pieces_toks {hd : Str → List Str → List Item} {mg : Nat → Str} (hm : MarginOk mg) (ds : List Directive) :
    ∀ (depth : Nat) (last : Int) (rest : List Piece), TreeOk hd ds → CommentsApart ds → Flush rest → ∀ (line start : Int) (D : Nat) (dup : Bool),
    ∃ (toks : List Tok) (line' start' : Int) (dup' : Bool), Toks hd ds toks ∧
      specToks line start D dup false (toItems mg (pieces hd depth last ds ++ rest)) = toks ++ specToks line' start' D dup' false (toItems mg rest) := by
  induction ds using listInd with
  | h0 => intro depth last rest _ _ _ line start D dup; exact ⟨[], line, start, dup, .nil, rfl⟩
  | h1 d ds ihb ih =>
    intro depth last rest ht ha hf line start D dup
    have hd' := ht d (.here (List.mem_cons_self ..))
    unfold pieces
    by_cases hc : CommentOn d last
    · rw [if_pos hc]
      have hic : IsComment d := ⟨hc.1, hc.2.1⟩
      rw [List.cons_append, List.cons_append, toItems, List.cons_append, List.nil_append, specToks,
        specToks_comment hm _ _ (ha.flush hic hc.2.2.symm hf)]
      obtain ⟨toks, l, s, dup', h1, h2⟩ := ih depth last rest ht.tail ha.tail hf (line + nls [' ']) (line + nls [' ']) D dup
      exact ⟨_, l, s, dup', .comment hic h1, by rw [h2]; rfl⟩
    · rw [if_neg hc, List.cons_append, List.append_assoc, specToks_nl hm]
      rcases hd' with ⟨hic, h⟩ | ⟨hic, h⟩
      · rw [piecesDir_comment hic, List.cons_append, List.nil_append, specToks_comment hm _ _ (ha.flush hic rfl hf)]
        obtain ⟨toks, l, s, dup', h1, h2⟩ := ih depth d.line rest ht.tail ha.tail hf (line + 1) (line + 1) D dup
        exact ⟨_, l, s, dup', .comment hic h1, by rw [h2]; rfl⟩
      · rw [piecesDir_other hic]
        cases hb : d.block with
        | none =>
          unfold piecesBlock
          rw [List.cons_append, List.nil_append, toItems, List.append_assoc]
          obtain ⟨hs, l, s, g', v, e⟩ := specToks_simple h.simple (line + 1) start D dup false ([.special ';'] ++ toItems mg (pieces hd depth d.line ds ++ rest))
          rw [e, if_neg h.some, List.cons_append, List.nil_append, specToks]
          obtain ⟨toks, l2, s2, dup2, h1, h2⟩ := ih depth d.line rest ht.tail ha.tail hf l (if g' = true then s else l) D true
          refine ⟨_, l2, s2, dup2, .simple (line := if g' = true then s else l) hic v hb h1, ?_⟩
          simp [h2]
        | some b =>
          unfold piecesBlock
          rw [List.cons_append, List.append_assoc, toItems, List.append_assoc]
          generalize hrest : pieces hd (depth + 1) d.line b ++ ([.nl depth, .code [.special '}']] ++ (pieces hd depth d.line ds ++ rest)) = more
          obtain ⟨hs, l, s, g', v, e⟩ := specToks_simple h.simple (line + 1) start D dup false ([.space ' ', .special '{'] ++ toItems mg more)
          rw [e, if_neg h.some, List.cons_append, specToks, List.cons_append, List.nil_append, specToks]
          obtain ⟨inner, l1, s1, dup1, h1, h2⟩ := ihb b hb (depth + 1) d.line ([.nl depth, .code [.special '}']] ++ (pieces hd depth d.line ds ++ rest))
            (ht.block hb) (ha.block hb) (Or.inr ⟨_, _, rfl⟩) (l + nls [' ']) (l + nls [' ']) (D + 1) true
          rw [hrest] at h2
          have hclose : specToks l1 s1 (D + 1) dup1 false (toItems mg ([.nl depth, .code [.special '}']] ++ (pieces hd depth d.line ds ++ rest))) =
              ⟨c!"}", l1 + 1, false, none⟩ :: specToks (l1 + 1) (l1 + 1) D true false (toItems mg (pieces hd depth d.line ds ++ rest)) := by
            rw [List.cons_append, specToks_nl hm, List.cons_append, List.nil_append, toItems, List.cons_append, List.nil_append, specToks]
            simp
          obtain ⟨toks, l2, s2, dup2, h3, h4⟩ := ih depth d.line rest ht.tail ha.tail hf (l1 + 1) (l1 + 1) D true
          refine ⟨_, l2, s2, dup2, .block (l1 := l + nls [' ']) (l2 := l1 + 1) hic v hb h1 h3, ?_⟩
          rw [hclose, h4] at h2
          simp [h2]

/-! ## The whole file -/

/-- The pieces of a file: those of its directives, without the first line feed. -/
def filePieces (hd : Str → List Str → List Item) (ds : List Directive) : List Piece :=
  match pieces hd 0 0 ds with
  | .nl _ :: ps => ps
  | ps => ps

theorem filePieces_cases (hd : Str → List Str → List Item) (ds : List Directive) :
    pieces hd 0 0 ds = filePieces hd ds ∧ (ds = [] ∨ ∃ d r, ds = d :: r ∧ CommentOn d 0) ∨
    pieces hd 0 0 ds = .nl 0 :: filePieces hd ds ∧ ∃ d r, ds = d :: r ∧ ¬ CommentOn d 0 := by
  unfold filePieces
  cases ds with
  | nil => exact Or.inl ⟨rfl, Or.inl rfl⟩
  | cons d ds =>
    rw [pieces]
    by_cases hc : CommentOn d 0
    · rw [if_pos hc]; exact Or.inl ⟨rfl, Or.inr ⟨d, ds, rfl, hc⟩⟩
    · rw [if_neg hc]; exact Or.inr ⟨rfl, d, ds, rfl, hc⟩

/-- The margins. -/
def margins (indent : Nat) (tabs : Bool) (depth : Nat) : Str := if tabs then List.replicate depth '\t' else List.replicate (depth * indent) ' '

theorem margins_ok (indent : Nat) (tabs : Bool) : MarginOk (margins indent tabs) := by
  intro d c hc
  unfold margins at hc
  cases tabs with
  | true => simp at hc; exact Or.inr hc.2
  | false => simp at hc; exact Or.inl hc.2

theorem filePieces_text (quote : Str → Str) (hd : Str → List Str → List Item) (indent : Nat) (tabs : Bool) (ds : List Directive)
    (h : ∀ d, Within d ds → ¬ IsComment d → unlex (hd d.directive d.args) = headText quote d.directive d.args) :
    ptext (margins indent tabs) (filePieces hd ds) = joinLines indent tabs (fileLines quote noBuilders ds) := by
  have hp := pieces_text quote hd { indent := (indent : Int), tabs := tabs } 0 0 ds h
  have hm : marginOf { indent := (indent : Int), tabs := tabs } = margins indent tabs := by
    funext d; simp [marginOf, margins]
  have hl : ∀ ls : List Line, moreLines { indent := (indent : Int), tabs := tabs } ls = ls.flatMap fun l => '\n' :: l.render indent tabs := by
    intro ls; simp [moreLines]
  rw [hm, hl] at hp
  unfold fileLines
  rcases filePieces_cases hd ds with ⟨e, hc⟩ | ⟨e, d, r, rfl, hc⟩
  · rw [e] at hp
    rw [hp]
    rcases hc with rfl | ⟨d, r, rfl, hc⟩
    · rfl
    · have : (layout quote noBuilders 0 0 (d :: r)).1 ≠ [] := by rw [layout, if_pos hc]; simp
      rw [if_neg this]
      simp [joinLines, Line.render]
  · rw [e, ptext] at hp
    have h0 : margins indent tabs 0 = [] := by simp [margins]
    have h1 : (layout quote noBuilders 0 0 (d :: r)).1 = [] := by rw [layout, if_neg hc]
    rw [h0, h1] at hp
    rw [h1, if_pos rfl, List.nil_append]
    cases hls : (layout quote noBuilders 0 0 (d :: r)).2 with
    | nil => rw [hls] at hp; simp at hp
    | cons l ls =>
      rw [hls] at hp
      simpa [joinLines] using hp

theorem filePieces_ok {hd : Str → List Str → List Item} {ds : List Directive} (ht : TreeOk hd ds) (ha : CommentsApart ds) : PiecesOk (filePieces hd ds) := by
  have h := pieces_ok ds 0 0 [] ht ha (Or.inl rfl) trivial
  rw [List.append_nil] at h
  rcases filePieces_cases hd ds with ⟨e, -⟩ | ⟨e, -⟩
  · rwa [e] at h
  · rw [e] at h; exact h

theorem specToks_congr {X Y : List Item} (h : ∀ line start D dup g, specToks line start D dup g X = specToks line start D dup g Y) (is : List Item) :
    ∀ line start D dup g, specToks line start D dup g (is ++ X) = specToks line start D dup g (is ++ Y) := by
  induction is with
  | nil => exact h
  | cons i is ih =>
    intro line start D dup g
    rw [List.cons_append, List.cons_append]
    cases i <;> simp only [specToks, ih]

/-- The margins do not matter. -/
theorem toItems_margins {mg mg' : Nat → Str} (hm : MarginOk mg) (hm' : MarginOk mg') (n : Nat) : ∀ ps : List Piece, ps.length ≤ n →
    ∀ line start D dup g, specToks line start D dup g (toItems mg ps) = specToks line start D dup g (toItems mg' ps) := by
  induction n with
  | zero =>
    intro ps hn
    obtain rfl : ps = [] := List.length_eq_zero_iff.mp (Nat.le_zero.mp hn)
    intros; rfl
  | succ n ih =>
    intro ps hn line start D dup g
    cases ps with
    | nil => rfl
    | cons p ps =>
      have hlen : ps.length ≤ n := by simpa using hn
      cases p with
      | code is => exact specToks_congr (ih ps hlen) is line start D dup g
      | nl d =>
        rw [toItems, toItems, specToks, specToks, specToks_margin (hm d), specToks_margin (hm' d), ih ps hlen]
      | comment c =>
        cases ps with
        | nil => rfl
        | cons p ps =>
          cases p with
          | nl d =>
            rw [toItems, toItems, specToks, specToks, specToks_margin (hm d), specToks_margin (hm' d), ih ps (by simp at hlen; omega)]
          | code is => rfl
          | comment c => rfl

/-- The lines of a file, as text. -/
def linesText (quote : Str → Str) (indent : Nat) (tabs : Bool) (ds : List Directive) : Str := joinLines indent tabs (fileLines quote noBuilders ds)

theorem linesText_lex {quote : Str → Str} {hd : Str → List Str → List Item} (indent : Nat) (tabs : Bool) {ds : List Directive}
    (hx : ∀ d, Within d ds → ¬ IsComment d → unlex (hd d.directive d.args) = headText quote d.directive d.args) (ht : TreeOk hd ds) (ha : CommentsApart ds) :
    lex (linesText quote indent tabs ds) = toksOf (toItems (margins indent tabs) (filePieces hd ds)) := by
  unfold linesText
  rw [← filePieces_text quote hd indent tabs ds hx, lex_pieces (margins_ok indent tabs) (filePieces_ok ht ha)]

/-- The tokens of a file. -/
theorem linesText_toks {quote : Str → Str} {hd : Str → List Str → List Item} (indent : Nat) (tabs : Bool) {ds : List Directive}
    (hx : ∀ d, Within d ds → ¬ IsComment d → unlex (hd d.directive d.args) = headText quote d.directive d.args) (ht : TreeOk hd ds) (ha : CommentsApart ds) :
    Toks hd ds (lex (linesText quote indent tabs ds)) := by
  rw [linesText_lex indent tabs hx ht ha]
  unfold toksOf
  have hm := margins_ok indent tabs
  rcases filePieces_cases hd ds with ⟨e, -⟩ | ⟨e, -⟩
  · obtain ⟨toks, l, s, dup, h1, h2⟩ := pieces_toks hm ds 0 0 [] ht ha (Or.inl rfl) 1 1 0 false
    rw [List.append_nil, e] at h2
    rw [h2]; simpa [toItems, specToks] using h1
  · obtain ⟨toks, l, s, dup, h1, h2⟩ := pieces_toks hm ds 0 0 [] ht ha (Or.inl rfl) 0 1 0 false
    rw [List.append_nil, e, specToks_nl hm] at h2
    rw [show (0 : Int) + 1 = 1 from rfl] at h2
    rw [h2]; simpa [toItems, specToks] using h1

/-! ## Comments of one line -/

/-- A comment is put before a comment of its line. -/
def glue (d : Directive) : List Directive → List Directive
  | [] => [d]
  | y :: ys =>
    if IsComment d ∧ CommentOn y d.line then { d with comment := some (d.comment.getD [] ++ c!" #" ++ y.comment.getD []) } :: ys else d :: y :: ys

mutual
/-- Comments of one line are made one. -/
def mergeL : List Directive → List Directive
  | [] => []
  | d :: ds => glue (mergeD d) (mergeL ds)
def mergeD : Directive → Directive
  | ⟨dd, dl, dargs, df, dincl, dblock, dcomm, dmap⟩ => ⟨dd, dl, dargs, df, dincl, mergeO dblock, dcomm, dmap⟩
def mergeO : Option (List Directive) → Option (List Directive)
  | none => none
  | some ds => some (mergeL ds)
end

theorem layoutDir_comment {quote : Str → Str} {depth : Nat} {tail : Str} {d : Directive} (h : IsComment d) :
    layoutDir quote noBuilders depth tail d = [⟨depth, '#' :: d.comment.getD [] ++ tail⟩] := by
  obtain ⟨dd, dl, dargs, df, dincl, dblock, dcomm, dmap⟩ := d
  obtain ⟨h1, h2⟩ := h
  simp only at h1 h2
  unfold layoutDir
  simp only [noBuilders]
  rw [if_pos h1]
  cases dcomm with
  | none => exact absurd rfl h2
  | some c => rfl

theorem layout_cons {quote : Str → Str} {depth : Nat} {last : Int} {d : Directive} {ds : List Directive} :
    layout quote noBuilders depth last (d :: ds) =
      if CommentOn d last then (c!" #" ++ d.comment.getD [] ++ (layout quote noBuilders depth last ds).1, (layout quote noBuilders depth last ds).2)
      else ([], layoutDir quote noBuilders depth (layout quote noBuilders depth d.line ds).1 d ++ (layout quote noBuilders depth d.line ds).2) := by
  rw [layout]
  rfl

theorem layout_glue (quote : Str → Str) (depth : Nat) (last : Int) (d : Directive) (ds : List Directive) :
    layout quote noBuilders depth last (glue d ds) = layout quote noBuilders depth last (d :: ds) := by
  cases ds with
  | nil => rfl
  | cons y ys =>
    rw [glue]
    by_cases h : IsComment d ∧ CommentOn y d.line
    · rw [if_pos h]
      obtain ⟨hd, hy⟩ := h
      rw [layout_cons, layout_cons (d := d)]
      have hn : IsComment { d with comment := some (d.comment.getD [] ++ c!" #" ++ y.comment.getD []) } := ⟨hd.1, by simp⟩
      by_cases hl : d.line = last
      · rw [if_pos ⟨hd.1, by simp, hl⟩, if_pos ⟨hd.1, hd.2, hl⟩, layout_cons (d := y), if_pos (by rw [← hl]; exact hy)]
        simp
      · rw [if_neg (fun h => hl h.2.2), if_neg (fun h => hl h.2.2), layout_cons (d := y), if_pos hy, layoutDir_comment hn, layoutDir_comment hd]
        simp
    · rw [if_neg h]

mutual
theorem layout_merge (quote : Str → Str) (depth : Nat) (last : Int) : (ds : List Directive) →
    layout quote noBuilders depth last (mergeL ds) = layout quote noBuilders depth last ds
  | [] => rfl
  | d :: ds => by
    rw [mergeL, layout_glue, layout_cons, layout_cons]
    have h1 : (CommentOn (mergeD d) last) = CommentOn d last := by obtain ⟨dd, dl, dargs, df, dincl, dblock, dcomm, dmap⟩ := d; rfl
    have h2 : (mergeD d).comment = d.comment := by obtain ⟨dd, dl, dargs, df, dincl, dblock, dcomm, dmap⟩ := d; rfl
    have h3 : (mergeD d).line = d.line := by obtain ⟨dd, dl, dargs, df, dincl, dblock, dcomm, dmap⟩ := d; rfl
    simp only [h1, h2, h3, layout_merge quote depth _ ds, layoutDir_merge quote depth _ d]
theorem layoutDir_merge (quote : Str → Str) (depth : Nat) (tail : Str) : (d : Directive) →
    layoutDir quote noBuilders depth tail (mergeD d) = layoutDir quote noBuilders depth tail d
  | ⟨dd, dl, dargs, df, dincl, dblock, dcomm, dmap⟩ => by
    unfold mergeD layoutDir
    simp only [noBuilders]
    have := layoutBlock_merge quote depth tail (headText quote dd dargs) dl dblock
    cases (if dd = c!"#" then dcomm else none) with
    | some t => rfl
    | none => exact this
theorem layoutBlock_merge (quote : Str → Str) (depth : Nat) (tail head : Str) (line : Int) : (b : Option (List Directive)) →
    layoutBlock quote noBuilders depth tail head line (mergeO b) = layoutBlock quote noBuilders depth tail head line b
  | none => rfl
  | some ds => by rw [mergeO, layoutBlock, layoutBlock, layout_merge quote (depth + 1) line ds]
end

theorem linesText_merge (quote : Str → Str) (indent : Nat) (tabs : Bool) (ds : List Directive) :
    linesText quote indent tabs (mergeL ds) = linesText quote indent tabs ds := by
  unfold linesText fileLines; rw [layout_merge]

theorem mergeD_fields (d : Directive) : (mergeD d).directive = d.directive ∧ (mergeD d).line = d.line ∧ (mergeD d).args = d.args ∧
    (mergeD d).comment = d.comment ∧ (mergeD d).block = mergeO d.block := by
  obtain ⟨dd, dl, dargs, df, dincl, dblock, dcomm, dmap⟩ := d
  exact ⟨rfl, rfl, rfl, rfl, rfl⟩

theorem mergeD_isComment (d : Directive) : IsComment (mergeD d) ↔ IsComment d := by
  obtain ⟨dd, dl, dargs, df, dincl, dblock, dcomm, dmap⟩ := d
  exact Iff.rfl

/-- A property of the heads and comments of a tree that is kept when comments are put together. -/
structure Kept (P : Directive → Prop) : Prop where
  same : ∀ d e : Directive, d.directive = e.directive → d.args = e.args → d.comment = e.comment → P d → P e
  both : ∀ d e : Directive, P d → P e → IsComment d → IsComment e →
    P { d with comment := some (d.comment.getD [] ++ c!" #" ++ e.comment.getD []) }

theorem glue_within {P : Directive → Prop} (hP : Kept P) {d : Directive} {ds : List Directive} (h : ∀ x, Within x (d :: ds) → P x) :
    ∀ x, Within x (glue d ds) → P x := by
  cases ds with
  | nil => exact h
  | cons y ys =>
    rw [glue]
    by_cases hc : IsComment d ∧ CommentOn y d.line
    · rw [if_pos hc]
      intro x hx
      have hb := hP.both d y (h d (.here (by simp))) (h y (.here (by simp))) hc.1 ⟨hc.2.1, hc.2.2.1⟩
      cases hx with
      | here hm =>
        rcases List.mem_cons.mp hm with rfl | hm
        · exact hb
        · exact h x (.here (by simp [hm]))
      | deep hm hbl hw =>
        rcases List.mem_cons.mp hm with rfl | hm
        · exact h x (.deep (d' := d) (by simp) hbl hw)
        · exact h x (.deep (List.mem_cons_of_mem _ (List.mem_cons_of_mem _ hm)) hbl hw)
    · rw [if_neg hc]; exact h

theorem merge_within {P : Directive → Prop} (hP : Kept P) (ds : List Directive) : (∀ x, Within x ds → P x) → ∀ x, Within x (mergeL ds) → P x := by
  induction ds using listInd with
  | h0 => intro h; exact h
  | h1 d ds ihb ih =>
    intro h
    rw [mergeL]
    obtain ⟨e1, e2, e3, e4, e5⟩ := mergeD_fields d
    apply glue_within hP
    intro x hx
    have ih' := ih (fun x hx => h x (Within.mono hx (fun _ hm => List.mem_cons_of_mem _ hm)))
    cases hx with
    | here hm =>
      rcases List.mem_cons.mp hm with rfl | hm
      · exact hP.same d _ e1.symm e3.symm e4.symm (h d (.here (by simp)))
      · exact ih' x (.here hm)
    | deep hm hb hw =>
      rcases List.mem_cons.mp hm with rfl | hm
      · rw [e5] at hb
        cases hdb : d.block with
        | none => rw [hdb] at hb; cases hb
        | some b =>
          rw [hdb] at hb
          cases hb
          exact ihb b hdb (fun x hx => h x (.deep (by simp) hdb hx)) x hw
      · exact ih' x (.deep hm hb hw)

theorem within_tail_apart {d : Directive} {ds : List Directive} (h : CommentsApart ds) (hb : ∀ b, d.block = some b → CommentsApart b)
    (hd : ∀ y ys, ds = y :: ys → IsComment d → IsComment y → d.line ≠ y.line) : CommentsApart (d :: ds) := by
  intro l hl a x y r e hx hy
  rcases hl with rfl | ⟨d', hw, hbl⟩
  · cases a with
    | nil =>
      rw [List.nil_append, List.cons.injEq] at e
      obtain ⟨rfl, e⟩ := e
      exact hd y r e hx hy
    | cons a0 a =>
      rw [List.cons_append, List.cons.injEq] at e
      exact h ds (Or.inl rfl) a x y r e.2 hx hy
  · cases hw with
    | here hm =>
      rcases List.mem_cons.mp hm with rfl | hm
      · exact hb l hbl l (Or.inl rfl) a x y r e hx hy
      · exact h l (Or.inr ⟨d', .here hm, hbl⟩) a x y r e hx hy
    | deep hm hb2 hw =>
      rcases List.mem_cons.mp hm with rfl | hm
      · exact hb _ hb2 l (Or.inr ⟨d', hw, hbl⟩) a x y r e hx hy
      · exact h l (Or.inr ⟨d', .deep hm hb2 hw, hbl⟩) a x y r e hx hy

theorem merge_apart (ds : List Directive) : CommentsApart (mergeL ds) := by
  induction ds using listInd with
  | h0 =>
    intro l hl a x y b e
    rcases hl with rfl | ⟨d, hw, -⟩
    · cases a <;> cases e
    · cases hw with
      | here hm => cases hm
      | deep hm => cases hm
  | h1 d ds ihb ih =>
    rw [mergeL]
    obtain ⟨e1, e2, e3, e4, e5⟩ := mergeD_fields d
    have hbl : ∀ b, (mergeD d).block = some b → CommentsApart b := by
      intro b hb
      rw [e5] at hb
      cases hdb : d.block with
      | none => rw [hdb] at hb; cases hb
      | some b' => rw [hdb] at hb; cases hb; exact ihb b' hdb
    cases hm : mergeL ds with
    | nil =>
      refine within_tail_apart (by rw [← hm]; exact ih) hbl ?_
      intro y ys e; cases e
    | cons y ys =>
      rw [hm] at ih
      rw [glue]
      by_cases hc : IsComment (mergeD d) ∧ CommentOn y (mergeD d).line
      · rw [if_pos hc]
        refine within_tail_apart ih.tail hbl ?_
        rintro z zs rfl - hz
        have := ih (y :: z :: zs) (Or.inl rfl) [] y z zs rfl ⟨hc.2.1, hc.2.2.1⟩ hz
        rw [hc.2.2.2] at this
        exact this
      · rw [if_neg hc]
        refine within_tail_apart ih hbl ?_
        intro z zs e hx hz hl
        cases e
        exact hc ⟨hx, hz.1, hz.2, hl.symm⟩

end Verif
