import Verif.Proofs.Restable
/-!
# The lines of the directives of built text
-/
namespace Verif
open Spec

/-- The tokens of a tree with their lines.  `last` is the line in the tree of the directive before, `line` the line on which the text before ends; the last
argument is the line on which the tokens end. -/
inductive LToks (hd : Str → List Str → List Item) : (last line : Int) → List Directive → List Tok → Int → Prop
  | nil {last line} : LToks hd last line [] [] line
  | beside {last line : Int} {d : Directive} {ds toks e} : CommentOn d last → LToks hd last line ds toks e →
      LToks hd last line (d :: ds) (⟨'#' :: textOf (cunits (d.comment.getD [])).1, line, false, none⟩ :: toks) e
  | comment {last line : Int} {d : Directive} {ds toks e} : IsComment d → ¬ CommentOn d last → LToks hd d.line (line + 1) ds toks e →
      LToks hd last line (d :: ds) (⟨'#' :: textOf (cunits (d.comment.getD [])).1, line + 1, false, none⟩ :: toks) e
  | simple {last line semi : Int} {d : Directive} {ds hs toks e} : ¬ IsComment d → Vals hs (itemVals (hd d.directive d.args)) → (∀ t ∈ hs, t.line = line + 1) →
      d.block = none → LToks hd d.line (line + 1) ds toks e → LToks hd last line (d :: ds) (hs ++ ⟨c!";", semi, false, none⟩ :: toks) e
  | block {last line l1 l2 : Int} {d : Directive} {b ds hs inner toks m e} : ¬ IsComment d → Vals hs (itemVals (hd d.directive d.args)) → (∀ t ∈ hs, t.line = line + 1) →
      d.block = some b → LToks hd d.line (line + 1) b inner m → line + 1 ≤ m → LToks hd d.line (m + 1) ds toks e →
      LToks hd last line (d :: ds) (hs ++ ⟨c!"{", l1, false, none⟩ :: (inner ++ ⟨c!"}", l2, false, none⟩ :: toks)) e

theorem LToks.le {hd : Str → List Str → List Item} {last line : Int} {ds : List Directive} {toks : List Tok} {e : Int} (h : LToks hd last line ds toks e) : line ≤ e := by
  induction h with
  | nil => exact Int.le_refl _
  | beside _ _ ih => exact ih
  | comment _ _ _ ih => omega
  | simple _ _ _ _ _ ih => omega
  | block _ _ _ _ _ hm _ ih1 ih2 => omega

/-- No line feeds. -/
def Flat (is : List Item) : Prop := ∀ i ∈ is, '\n' ∉ i.text

theorem nls_zero {s : Str} (h : '\n' ∉ s) : nls s = 0 := by
  unfold nls
  rw [List.count_eq_zero_of_not_mem h]; rfl

theorem specToks_flat {is : List Item} (h : ∀ i ∈ is, Simple i) (hf : Flat is) (line start : Int) (D : Nat) (dup g : Bool) (rest : List Item) :
    ∃ (toks : List Tok) (start' : Int) (g' : Bool), Vals toks (itemVals is) ∧ (∀ t ∈ toks, t.line = line) ∧
      specToks line start D dup g (is ++ rest) = toks ++ specToks line start' D (if itemVals is = [] then dup else false) g' rest := by
  induction is generalizing start dup g with
  | nil => exact ⟨[], start, g, rfl, by simp, rfl⟩
  | cons i is ih =>
    have ih := ih (fun j hj => h j (by simp [hj])) (fun j hj => hf j (by simp [hj]))
    have hi := h i (by simp)
    have hn := hf i (by simp)
    cases i with
    | space c =>
      have hn : '\n' ∉ [c] := hn
      obtain ⟨toks, s, g', h1, hl, h2⟩ := ih start dup false
      exact ⟨toks, s, g', h1, hl, by rw [List.cons_append, specToks, nls_zero hn, Int.add_zero, h2]; rfl⟩
    | word us =>
      have hn : '\n' ∉ textOf us := hn
      have hw : wordLine line us = line := by
        cases us with
        | nil => rfl
        | cons u us =>
          cases u with
          | plain c => rfl
          | esc c =>
            unfold wordLine
            split
            · rename_i e
              cases e
              exact absurd (by rw [textOf_cons]; simp [U.text]) hn
            · rfl
      obtain ⟨toks, s, g', h1, hl, h2⟩ := ih line false true
      refine ⟨⟨textOf us, line, false, none⟩ :: toks, s, g', ?_, ?_, ?_⟩
      · simp only [Vals, List.map_cons, itemVals, List.cons.injEq, true_and]; exact h1
      · intro t ht
        rcases List.mem_cons.mp ht with rfl | ht
        · rfl
        · exact hl t ht
      · rw [List.cons_append, specToks, nls_zero hn, Int.add_zero, hw, h2]; simp [itemVals]
    | quoted q us closed =>
      obtain rfl : closed = true := hi
      have hn : '\n' ∉ textOf us := fun h => hn (by simp [Item.text, h])
      obtain ⟨toks, s, g', h1, hl, h2⟩ := ih line false false
      refine ⟨⟨quotedValue q us, line, true, none⟩ :: toks, s, g', ?_, ?_, ?_⟩
      · simp only [Vals, List.map_cons, itemVals, List.cons.injEq, true_and]; exact h1
      · intro t ht
        rcases List.mem_cons.mp ht with rfl | ht
        · rfl
        · exact hl t ht
      · rw [List.cons_append, specToks, nls_zero hn, Int.add_zero, h2]; simp [itemVals]
    | special c => exact hi.elim
    | comment us e => exact hi.elim

theorem pieces_ltoks {hd : Str → List Str → List Item} {mg : Nat → Str} (hm : MarginOk mg) (ds : List Directive) :
    ∀ (depth : Nat) (last : Int) (rest : List Piece), TreeOk hd ds → CommentsApart ds → (∀ d, Within d ds → ¬ IsComment d → Flat (hd d.directive d.args)) → Flush rest →
    ∀ (line start : Int) (D : Nat) (dup : Bool),
    ∃ (toks : List Tok) (line' start' : Int) (dup' : Bool), LToks hd last line ds toks line' ∧
      specToks line start D dup false (toItems mg (pieces hd depth last ds ++ rest)) = toks ++ specToks line' start' D dup' false (toItems mg rest) := by
  induction ds using listInd with
  | h0 => intro depth last rest _ _ _ _ line start D dup; exact ⟨[], line, start, dup, .nil, rfl⟩
  | h1 d ds ihb ih =>
    intro depth last rest ht ha hfl hf line start D dup
    have hd' := ht d (.here (List.mem_cons_self ..))
    have hflt : ∀ d, Within d ds → ¬ IsComment d → Flat (hd d.directive d.args) := fun x hx => hfl x (Within.mono hx (fun _ hm => List.mem_cons_of_mem _ hm))
    unfold pieces
    by_cases hc : CommentOn d last
    · rw [if_pos hc]
      have hic : IsComment d := ⟨hc.1, hc.2.1⟩
      rw [List.cons_append, List.cons_append, toItems, List.cons_append, List.nil_append, specToks,
        specToks_comment hm _ _ (ha.flush hic hc.2.2.symm hf), show nls [' '] = 0 from rfl, Int.add_zero]
      obtain ⟨toks, l, s, dup', h1, h2⟩ := ih depth last rest ht.tail ha.tail hflt hf line line D dup
      exact ⟨_, l, s, dup', .beside hc h1, by rw [h2]; rfl⟩
    · rw [if_neg hc, List.cons_append, List.append_assoc, specToks_nl hm]
      rcases hd' with ⟨hic, h⟩ | ⟨hic, h⟩
      · rw [piecesDir_comment hic, List.cons_append, List.nil_append, specToks_comment hm _ _ (ha.flush hic rfl hf)]
        obtain ⟨toks, l, s, dup', h1, h2⟩ := ih depth d.line rest ht.tail ha.tail hflt hf (line + 1) (line + 1) D dup
        exact ⟨_, l, s, dup', .comment hic hc h1, by rw [h2]; rfl⟩
      · rw [piecesDir_other hic]
        have hflat := hfl d (.here (by simp)) hic
        cases hb : d.block with
        | none =>
          unfold piecesBlock
          rw [List.cons_append, List.nil_append, toItems, List.append_assoc]
          obtain ⟨hs, s, g', v, hl, e⟩ := specToks_flat h.simple hflat (line + 1) start D dup false ([.special ';'] ++ toItems mg (pieces hd depth d.line ds ++ rest))
          rw [e, if_neg h.some, List.cons_append, List.nil_append, specToks]
          obtain ⟨toks, l2, s2, dup2, h1, h2⟩ := ih depth d.line rest ht.tail ha.tail hflt hf (line + 1) (if g' = true then s else line + 1) D true
          refine ⟨_, l2, s2, dup2, .simple (semi := if g' = true then s else line + 1) hic v hl hb h1, ?_⟩
          simp [h2]
        | some b =>
          unfold piecesBlock
          rw [List.cons_append, List.append_assoc, toItems, List.append_assoc]
          generalize hrest : pieces hd (depth + 1) d.line b ++ ([.nl depth, .code [.special '}']] ++ (pieces hd depth d.line ds ++ rest)) = more
          obtain ⟨hs, s, g', v, hl, e⟩ := specToks_flat h.simple hflat (line + 1) start D dup false ([.space ' ', .special '{'] ++ toItems mg more)
          rw [e, if_neg h.some, List.cons_append, specToks, List.cons_append, List.nil_append, specToks, show nls [' '] = 0 from rfl, Int.add_zero]
          obtain ⟨inner, l1, s1, dup1, h1, h2⟩ := ihb b hb (depth + 1) d.line ([.nl depth, .code [.special '}']] ++ (pieces hd depth d.line ds ++ rest))
            (ht.block hb) (ha.block hb) (fun x hx => hfl x (.deep (by simp) hb hx)) (Or.inr ⟨_, _, rfl⟩) (line + 1) (line + 1) (D + 1) true
          rw [hrest] at h2
          have hclose : specToks l1 s1 (D + 1) dup1 false (toItems mg ([.nl depth, .code [.special '}']] ++ (pieces hd depth d.line ds ++ rest))) =
              ⟨c!"}", l1 + 1, false, none⟩ :: specToks (l1 + 1) (l1 + 1) D true false (toItems mg (pieces hd depth d.line ds ++ rest)) := by
            rw [List.cons_append, specToks_nl hm, List.cons_append, List.nil_append, toItems, List.cons_append, List.nil_append, specToks]
            simp
          obtain ⟨toks, l2, s2, dup2, h3, h4⟩ := ih depth d.line rest ht.tail ha.tail hflt hf (l1 + 1) (l1 + 1) D true
          refine ⟨_, l2, s2, dup2, .block (l1 := line + 1) (l2 := l1 + 1) hic v hl hb h1 h1.le h3, ?_⟩
          rw [hclose, h4] at h2
          simp [h2]

/-- The tokens of a file with their lines, if it does not start with a comment of line zero. -/
theorem linesText_ltoks {quote : Str → Str} {hd : Str → List Str → List Item} (indent : Nat) (tabs : Bool) {ds : List Directive}
    (hx : ∀ d, Within d ds → ¬ IsComment d → unlex (hd d.directive d.args) = headText quote d.directive d.args) (ht : TreeOk hd ds) (ha : CommentsApart ds)
    (hfl : ∀ d, Within d ds → ¬ IsComment d → Flat (hd d.directive d.args)) (h0 : ∀ d r, ds = d :: r → ¬ CommentOn d 0) :
    ∃ e, LToks hd 0 0 ds (lex (linesText quote indent tabs ds)) e := by
  rw [linesText_lex indent tabs hx ht ha]
  unfold toksOf
  have hm := margins_ok indent tabs
  rcases filePieces_cases hd ds with ⟨e, rfl | ⟨d, r, rfl, hc⟩⟩ | ⟨e, -⟩
  · exact ⟨0, .nil⟩
  · exact absurd hc (h0 d r rfl)
  · obtain ⟨toks, l, s, dup, h1, h2⟩ := pieces_ltoks hm ds 0 0 [] ht ha hfl (Or.inl rfl) 0 1 0 false
    rw [List.append_nil, e, specToks_nl hm] at h2
    rw [show (0 : Int) + 1 = 1 from rfl] at h2
    rw [h2]
    refine ⟨l, ?_⟩
    simpa [toItems, specToks] using h1

/-- The directives that are read from these tokens: the lines are those of the text. -/
inductive Relined : (last line : Int) → List Directive → List Directive → Int → Prop
  | nil {last line} : Relined last line [] [] line
  | beside {last line : Int} {d x : Directive} {ds xs e} : CommentOn d last → CommentOn x line → x.comment = d.comment → x.args = [] → x.block = none → Relined last line ds xs e →
      Relined last line (d :: ds) (x :: xs) e
  | comment {last line : Int} {d x : Directive} {ds xs e} : IsComment d → ¬ CommentOn d last → CommentOn x (line + 1) → x.comment = d.comment → x.args = [] → x.block = none →
      Relined d.line (line + 1) ds xs e → Relined last line (d :: ds) (x :: xs) e
  | simple {last line : Int} {d x : Directive} {ds xs e} : ¬ IsComment d → d.directive = x.directive → d.args = x.args → x.comment = none → x.line = line + 1 →
      d.block = none → x.block = none → Relined d.line (line + 1) ds xs e → Relined last line (d :: ds) (x :: xs) e
  | block {last line : Int} {d x : Directive} {b ys ds xs m e} : ¬ IsComment d → d.directive = x.directive → d.args = x.args → x.comment = none → x.line = line + 1 →
      d.block = some b → x.block = some ys → Relined d.line (line + 1) b ys m → line + 1 ≤ m → Relined d.line (m + 1) ds xs e → Relined last line (d :: ds) (x :: xs) e

/-- The tokens of an accepted tree are parsed as this tree, with the lines of the text. -/
theorem run_ltoks {isPrint : Char → Bool} {env : Env} {o : ParseOptions} {configDir file : Str} (hp : o.parseComments = true) {last line : Int} {ds : List Directive} {toks : List Tok}
    {e : Int} (h : LToks (heads isPrint) last line ds toks e) : ∀ (ctx : Ctx) (ps : PS) (x x' : List Tok), ps.includes = [] → Readable isPrint ds →
    Accepted needsQuote o ctx.vals ds → (x = [] ∧ x' = [] ∨ ∃ line, x = ⟨c!"}", line, false, none⟩ :: x') →
    ∃ es ps', RunOk env o configDir file ctx (toks ++ x) ps es x' ps' ∧ Relined last line ds es e ∧ Quiet ps ps' := by
  have comm : ∀ {d : Directive} {ds : List Directive} {toks : List Tok} {line : Int} {ctx : Ctx} {ps : PS} {es : List Directive} {ps' : PS} {x' : List Tok},
      IsComment d → Readable isPrint (d :: ds) → RunOk env o configDir file ctx toks ps es x' ps' →
      ∃ y : Directive, RunOk env o configDir file ctx (⟨'#' :: textOf (cunits (d.comment.getD [])).1, line, false, none⟩ :: toks) ps (y :: es) x' ps' ∧
        CommentOn y line ∧ y.comment = d.comment ∧ y.args = [] ∧ y.block = none := by
    intro d ds toks line ctx ps es ps' x' hc hr h1
    rcases hr d (.here (by simp)) with ⟨-, r1, r2, r3⟩ | ⟨r1, -⟩
    · rw [r3.cunits]
      have hs := (StepR.comment (env := env) (o := o) (configDir := configDir) (file := file) (ctx := ctx) (t := ⟨'#' :: d.comment.getD [], line, false, none⟩)
        (toks := toks) (ps := ps) rfl (by simp [Tok.is]) (by simp [Tok.isCommentTok, hasPrefix, List.isPrefixOf])).step_eq
      rw [hp, if_pos rfl] at hs
      refine ⟨_, .next _ _ _ _ _ _ _ _ _ _ hs h1, ⟨rfl, by simp [commentStmt], rfl⟩, ?_, rfl, rfl⟩
      cases hcm : d.comment with
      | none => exact absurd hcm hc.2
      | some text => simp [commentStmt]
    · exact absurd hc r1
  induction h with
  | nil =>
    intro ctx ps x x' hi hr ha hx
    rcases hx with ⟨rfl, rfl⟩ | ⟨line, rfl⟩
    · exact ⟨[], ps, .eof ctx ps, .nil, Quiet.refl ps⟩
    · refine ⟨[], ps, .stop _ _ _ _ _ _ ?_, .nil, Quiet.refl ps⟩
      exact (StepR.close rfl rfl).step_eq
  | @beside last line d ds toks e hc ht ih =>
    intro ctx ps x x' hi hr ha hx
    obtain ⟨es, ps', h1, h2, h3⟩ := ih ctx ps x x' hi hr.tail ha.tail hx
    obtain ⟨y, h4, h5, h6, h7, h8⟩ := comm ⟨hc.1, hc.2.1⟩ hr h1
    exact ⟨y :: es, ps', h4, .beside hc h5 h6 h7 h8 h2, h3⟩
  | @comment last line d ds toks e hc hn ht ih =>
    intro ctx ps x x' hi hr ha hx
    obtain ⟨es, ps', h1, h2, h3⟩ := ih ctx ps x x' hi hr.tail ha.tail hx
    obtain ⟨y, h4, h5, h6, h7, h8⟩ := comm hc hr h1
    exact ⟨y :: es, ps', h4, .comment hc hn h5 h6 h7 h8 h2, h3⟩
  | @simple last line semi d ds hs toks e hc hv hl0 hb ht ih =>
    intro ctx ps x x' hi hr ha hx
    obtain ⟨es, ps', h1, h2, h3⟩ := ih ctx ps x x' hi hr.tail ha.tail hx
    rcases hr d (.here (by simp)) with ⟨r1, -⟩ | ⟨-, r1, r2⟩
    · exact absurd r1 hc
    · have hl : HeadOk (heads isPrint d.directive d.args) := by
        rcases hr.lexable.treeOk d (.here (by simp)) with ⟨h1, -⟩ | ⟨-, h1⟩
        · exact absurd h1 hc
        · exact h1
      obtain ⟨t, mid, s, rfl, s1, s2, s3, s4, s6, s5, -⟩ := step_accepted (env := env) (configDir := configDir) (file := file) (ps := ps) hc r2 ha hl hv semi (toks ++ x)
      have := s5 hb
      unfold termOf at this
      rw [if_pos hb] at this
      refine ⟨s :: es, ps', ?_, .simple hc s1.symm s2.symm s3 (by rw [s6]; exact hl0 t (by simp)) hb s4 h2, h3⟩
      have hrun := RunOk.next ctx t _ ps _ _ _ _ _ _ this h1
      simpa using hrun
  | @block last line l1 l2 d b ds hs inner toks m e hc hv hl0 hb hbt hm ht ihb ih =>
    intro ctx ps x x' hi hr ha hx
    rcases hr d (.here (by simp)) with ⟨r1, -⟩ | ⟨-, r1, r2⟩
    · exact absurd r1 hc
    · have hl : HeadOk (heads isPrint d.directive d.args) := by
        rcases hr.lexable.treeOk d (.here (by simp)) with ⟨h1, -⟩ | ⟨-, h1⟩
        · exact absurd h1 hc
        · exact h1
      have hbn : d.block ≠ none := by rw [hb]; simp
      obtain ⟨t, mid, s, rfl, s1, s2, s3, s4, s6, -, s5⟩ := step_accepted (env := env) (configDir := configDir) (file := file) (ps := ps) hc r2 ha hl hv l1
        (inner ++ ⟨c!"}", l2, false, none⟩ :: toks ++ x)
      have hst := s5 hbn
      unfold termOf at hst
      rw [if_neg hbn] at hst
      have hq := enterBlockCtx_quiet s ctx ps hi
      obtain ⟨bs, ps1, i1, i2, i3⟩ := ihb (enterBlockCtx s ctx ps).1 (enterBlockCtx s ctx ps).2 (⟨c!"}", l2, false, none⟩ :: (toks ++ x)) (toks ++ x)
        (by rw [hq.includes, hi]) (hr.block hb) (by rw [enterBlockCtx_vals, s1]; exact ha.block hb) (Or.inr ⟨l2, rfl⟩)
      obtain ⟨es, ps', h1, h2, h3⟩ := ih ctx ps1 x x' (by rw [i3.includes, hq.includes, hi]) hr.tail ha.tail hx
      refine ⟨{ s with block := some bs } :: es, ps', ?_, Relined.block (b := b) (ys := bs) hc s1.symm s2.symm s3 (by
        show s.line = _
        rw [s6]; exact hl0 t (by simp)) hb rfl i2 hm h2, hq.trans (i3.trans h3)⟩
      have hrun := RunOk.block ctx t _ ps s [] _ ps bs _ ps1 es x' ps' hst (by simpa using i1) h1
      simpa [commentDirectives] using hrun

/-- No comment comes right after a block with the line of that block. -/
def CommentsClear (ds : List Directive) : Prop :=
  ∀ l, Siblings l ds → ∀ a x y b, l = a ++ x :: y :: b → x.block ≠ none → IsComment y → x.line ≠ y.line

theorem CommentsClear.tail {d : Directive} {ds : List Directive} (h : CommentsClear (d :: ds)) : CommentsClear ds := by
  intro l hl a x y b e
  rcases hl with rfl | ⟨d', hw, hb⟩
  · exact h (d :: l) (Or.inl rfl) (d :: a) x y b (by rw [e]; rfl)
  · exact h l (Or.inr ⟨d', Within.mono hw (fun _ hm => List.mem_cons_of_mem _ hm), hb⟩) a x y b e

theorem CommentsClear.block {d : Directive} {b ds : List Directive} (h : CommentsClear (d :: ds)) (hb : d.block = some b) : CommentsClear b := by
  intro l hl a x y r e
  rcases hl with rfl | ⟨d', hw, hb'⟩
  · exact h l (Or.inr ⟨d, .here (List.mem_cons_self ..), hb⟩) a x y r e
  · exact h l (Or.inr ⟨d', .deep (List.mem_cons_self ..) hb hw, hb'⟩) a x y r e

theorem layoutDir_other {quote : Str → Str} {depth : Nat} {tail : Str} {d : Directive} (h : ¬ IsComment d) :
    layoutDir quote noBuilders depth tail d = layoutBlock quote noBuilders depth tail (headText quote d.directive d.args) d.line d.block := by
  obtain ⟨dd, dl, dargs, df, dincl, dblock, dcomm, dmap⟩ := d
  unfold layoutDir
  have : (if dd = c!"#" then dcomm else none) = none := by
    by_cases h1 : dd = c!"#"
    · rw [if_pos h1]
      by_cases h2 : dcomm = none
      · exact h2
      · exact absurd ⟨h1, h2⟩ h
    · rw [if_neg h1]
  rw [this]
  rfl

/-- The layout is the same with the lines of the text.  `last'` is the line of the directive before. -/
theorem Relined.layout {quote : Str → Str} {last line : Int} {ds es : List Directive} {e : Int} (h : Relined last line ds es e) : ∀ (depth : Nat) (last' : Int),
    CommentsClear ds → (last' = line ∨ last' ≤ line ∧ ∀ d r, ds = d :: r → ¬ CommentOn d last) →
    layout quote noBuilders depth last' es = layout quote noBuilders depth last ds := by
  induction h with
  | nil => intro depth last' _ _; rfl
  | @beside last line d x ds xs e hd hx hc _ _ _ ih =>
    intro depth last' hcl hl
    rcases hl with rfl | ⟨-, hl⟩
    · rw [layout_cons, layout_cons, if_pos hx, if_pos hd, hc, ih depth last' hcl.tail (Or.inl rfl)]
    · exact absurd hd (hl d ds rfl)
  | @comment last line d x ds xs e hd hn hx hc _ _ _ ih =>
    intro depth last' hcl hl
    have hlt : last' ≤ line := by rcases hl with rfl | ⟨h, -⟩ <;> omega
    have hxl : x.line = line + 1 := hx.2.2
    rw [layout_cons, layout_cons, if_neg (fun h => by have := h.2.2; omega), if_neg hn, layoutDir_comment hd, layoutDir_comment ⟨hx.1, hx.2.1⟩, hc, hxl,
      ih depth (line + 1) hcl.tail (Or.inl rfl)]
  | @simple last line d x ds xs e hd h1 h2 h3 h4 h5 h6 _ ih =>
    intro depth last' hcl hl
    have hx : ¬ IsComment x := fun h => h.2 h3
    rw [layout_cons, layout_cons, if_neg (fun h => hx ⟨h.1, h.2.1⟩), if_neg (fun h => hd ⟨h.1, h.2.1⟩), layoutDir_other hd, layoutDir_other hx, h5, h6, h1, h2, h4,
      ih depth (line + 1) hcl.tail (Or.inl rfl)]
    rfl
  | @block last line d x b ys ds xs m e hd h1 h2 h3 h4 h5 h6 _ hm _ ihb ih =>
    intro depth last' hcl hl
    have hx : ¬ IsComment x := fun h => h.2 h3
    rw [layout_cons, layout_cons, if_neg (fun h => hx ⟨h.1, h.2.1⟩), if_neg (fun h => hd ⟨h.1, h.2.1⟩), layoutDir_other hd, layoutDir_other hx, h5, h6, h1, h2, h4,
      ih depth (line + 1) hcl.tail (Or.inr ⟨by omega, ?_⟩), layoutBlock, layoutBlock, ihb (depth + 1) (line + 1) (hcl.block h5) (Or.inl rfl)]
    intro y r e hy
    exact hcl _ (Or.inl rfl) [] d y r (by rw [e]; rfl) (by rw [h5]; simp) ⟨hy.1, hy.2.1⟩ hy.2.2.symm

theorem Relined.same {isPrint : Char → Bool} {last line : Int} {ds es : List Directive} {e : Int} (h : Relined last line ds es e) : Readable isPrint ds → Same ds es := by
  induction h with
  | nil => intro _; exact .nil
  | @beside last line d x ds xs e hd hx hc h1 h2 _ ih =>
    intro hr
    rcases hr d (.here (by simp)) with ⟨-, r1, r2, -⟩ | ⟨r1, -⟩
    · exact .leaf (by rw [hd.1, hx.1]) (by rw [r1, h1]) hc.symm r2 h2 (ih hr.tail)
    · exact absurd ⟨hd.1, hd.2.1⟩ r1
  | @comment last line d x ds xs e hd hn hx hc h1 h2 _ ih =>
    intro hr
    rcases hr d (.here (by simp)) with ⟨-, r1, r2, -⟩ | ⟨r1, -⟩
    · exact .leaf (by rw [hd.1, hx.1]) (by rw [r1, h1]) hc.symm r2 h2 (ih hr.tail)
    · exact absurd hd r1
  | @simple last line d x ds xs e hd h1 h2 h3 h4 h5 h6 _ ih =>
    intro hr
    rcases hr d (.here (by simp)) with ⟨r1, -⟩ | ⟨-, r1, -⟩
    · exact absurd r1 hd
    · exact .leaf h1 h2 (by rw [r1, h3]) h5 h6 (ih hr.tail)
  | @block last line d x b ys ds xs m e hd h1 h2 h3 h4 h5 h6 _ hm _ ihb ih =>
    intro hr
    rcases hr d (.here (by simp)) with ⟨r1, -⟩ | ⟨-, r1, -⟩
    · exact absurd r1 hd
    · exact .node h1 h2 (by rw [r1, h3]) h5 h6 (ihb (hr.block h5)) (ih hr.tail)

end Verif
