import Verif.Props.Build
import Verif.Spec.Hole
/-!
# C83: the text of a directive is its own
-/
namespace Verif
open Spec

section
variable {quote : Str → Str} {ext : Str → Option (Directive → Str)} {o : BuildOptions}

/-- The text of directives after a statement of line `last`. -/
def blockText (quote : Str → Str) (ext : Str → Option (Directive → Str)) (o : BuildOptions) (depth : Nat) (last : Int) (ds : List Directive) : Str :=
  (layout quote ext depth last ds).1 ++ moreLines o (layout quote ext depth last ds).2

/-- The text of a directive: its lines. -/
def dirText (quote : Str → Str) (ext : Str → Option (Directive → Str)) (o : BuildOptions) (depth : Nat) (d : Directive) : Str :=
  joinLines o.indent.toNat o.tabs (layoutDir quote ext depth [] d)

theorem moreLines_join {ls : List Line} (h : ls ≠ []) : moreLines o ls = '\n' :: joinLines o.indent.toNat o.tabs ls := by
  cases ls with
  | nil => exact absurd rfl h
  | cons l ls => simp [moreLines, joinLines]

theorem layoutDir_ne (depth : Nat) (tail : Str) (d : Directive) : layoutDir quote ext depth tail d ≠ [] := by
  obtain ⟨dd, dl, dargs, df, dincl, dblock, dcomm, dmap⟩ := d
  unfold layoutDir
  cases ext (quote dd) with
  | some b => simp
  | none =>
    simp only
    cases (if dd = c!"#" then dcomm else none) with
    | some text => simp
    | none => cases dblock <;> simp [layoutBlock]

theorem moreLines_dir (depth : Nat) (d : Directive) : moreLines o (layoutDir quote ext depth [] d) = '\n' :: dirText quote ext o depth d :=
  moreLines_join (layoutDir_ne _ _ _)

theorem blockText_comment {depth : Nat} {last : Int} {d : Directive} (h : CommentOn d last) (ds : List Directive) :
    blockText quote ext o depth last (d :: ds) = c!" #" ++ d.comment.getD [] ++ blockText quote ext o depth last ds := by
  unfold blockText
  rw [layout, if_pos h]
  simp

theorem blockText_cons {depth : Nat} {last : Int} {d : Directive} (h : ¬ CommentOn d last) (ds : List Directive) :
    blockText quote ext o depth last (d :: ds) = '\n' :: dirText quote ext o depth d ++
      blockText quote ext o depth (if (ext (quote d.directive)).isSome then last else d.line) ds := by
  unfold blockText
  rw [layout, if_neg h]
  simp only [moreLines_append, List.nil_append]
  rw [layoutDir_tail, moreLines_dir]
  simp

theorem blockText_append (depth : Nat) (a b : List Directive) : ∀ last, blockText quote ext o depth last (a ++ b) =
    blockText quote ext o depth last a ++ blockText quote ext o depth (lastLine quote ext last a) b := by
  induction a with
  | nil =>
    intro last
    simp [blockText, layout, moreLines, lastLine]
  | cons d a ih =>
    intro last
    rw [List.cons_append]
    by_cases hc : CommentOn d last
    · rw [blockText_comment hc, blockText_comment hc, ih, lastLine, if_pos (Or.inl hc)]
      simp
    · rw [blockText_cons hc, blockText_cons hc, ih, lastLine]
      have : (if CommentOn d last ∨ (ext (quote d.directive)).isSome = true then last else d.line) =
          if (ext (quote d.directive)).isSome = true then last else d.line := by simp [hc]
      rw [this]
      simp

theorem Spec.Ordinary.notOn {d : Directive} (h : Ordinary quote ext d) (last : Int) : ¬ CommentOn d last := fun hc => h.1 ⟨hc.1, hc.2.1⟩

theorem Spec.Ordinary.dirText {d : Directive} (h : Ordinary quote ext d) (depth : Nat) : dirText quote ext o depth d =
    joinLines o.indent.toNat o.tabs (layoutBlock quote ext depth [] (headText quote d.directive d.args) d.line d.block) := by
  obtain ⟨dd, dl, dargs, df, dincl, dblock, dcomm, dmap⟩ := d
  unfold Verif.dirText layoutDir
  simp only at h ⊢
  rw [h.2]
  simp only
  have : (if dd = c!"#" then dcomm else none) = none := by
    by_cases hd : dd = c!"#"
    · rw [if_pos hd]
      by_contra hn
      exact h.1 ⟨hd, hn⟩
    · rw [if_neg hd]
  rw [this]

theorem Spec.Ordinary.block {d : Directive} (h : Ordinary quote ext d) (depth : Nat) (ds : List Directive) :
    Verif.dirText quote ext o depth { d with block := some ds } =
      marginOf o depth ++ headText quote d.directive d.args ++ c!" {" ++ blockText quote ext o (depth + 1) d.line ds ++ '\n' :: marginOf o depth ++ c!"}" := by
  have h' : Ordinary quote ext { d with block := some ds } := h
  rw [h'.dirText]
  unfold layoutBlock blockText
  simp [joinLines, moreLines, render_eq]

/-- The text of an ordinary directive does not end with a line feed. -/
theorem Spec.Ordinary.ends {d : Directive} (h : Ordinary quote ext d) (depth : Nat) :
    ∃ s c, Verif.dirText quote ext o depth d = s ++ [c] ∧ (c = ';' ∨ c = '}') := by
  cases hb : d.block with
  | none =>
    rw [h.dirText, hb]
    exact ⟨_, ';', by simp only [layoutBlock, joinLines, render_eq, List.flatMap_nil, List.append_nil, List.append_assoc]; rw [← List.append_assoc], Or.inl rfl⟩
  | some ds =>
    have hd : d = { d with block := some ds } := by cases d; simp at hb; simp [hb]
    rw [hd, h.block]
    exact ⟨_, '}', rfl, Or.inr rfl⟩

/-- The text around a place. -/
theorem Spec.Place.blockText {p : Place} (hp : p.Rendered quote ext) (line : Int) : ∀ (depth : Nat) (last : Int), ∃ pre post, ∀ d, Ordinary quote ext d → d.line = line →
    Verif.blockText quote ext o depth last (p.fill d) = pre ++ '\n' :: Verif.dirText quote ext o (depth + p.depth) d ++ post := by
  induction p with
  | here before after =>
    intro depth last
    refine ⟨Verif.blockText quote ext o depth last before, Verif.blockText quote ext o depth line after, fun d hd hl => ?_⟩
    rw [Place.fill, blockText_append, blockText_cons (hd.notOn _), hd.2, ← hl]
    simp [Place.depth]
  | within before parent place after ih =>
    intro depth last
    obtain ⟨pre, post, h⟩ := ih hp.2 (depth + 1) parent.line
    refine ⟨Verif.blockText quote ext o depth last before ++ '\n' :: marginOf o depth ++ headText quote parent.directive parent.args ++ c!" {" ++ pre,
      post ++ '\n' :: marginOf o depth ++ c!"}" ++ Verif.blockText quote ext o depth parent.line after, fun d hd hl => ?_⟩
    have hp' : Ordinary quote ext { parent with block := some (place.fill d) } := hp.1
    rw [Place.fill, blockText_append, blockText_cons (hp'.notOn _), hp'.2, Spec.Ordinary.block hp.1, h d hd hl]
    simp [Place.depth, Nat.add_assoc, Nat.add_comm 1]

theorem layout_head (depth : Nat) (last : Int) (ds : List Directive) : (layout quote ext depth last ds).1 = [] ∨ ∃ s, (layout quote ext depth last ds).1 = ' ' :: s := by
  cases ds with
  | nil => exact Or.inl rfl
  | cons d ds =>
    rw [layout]
    by_cases hc : CommentOn d last
    · rw [if_pos hc]
      exact Or.inr ⟨_, rfl⟩
    · rw [if_neg hc]
      exact Or.inl rfl

/-- Without a line feed at the beginning. -/
def dropFirstLF (s : Str) : Str := if s.head? = some '\n' then s.drop 1 else s

theorem fileLines_text (ds : List Directive) : joinLines o.indent.toNat o.tabs (fileLines quote ext ds) = dropFirstLF (blockText quote ext o 0 0 ds) := by
  unfold fileLines blockText dropFirstLF
  rcases layout_head (quote := quote) (ext := ext) 0 0 ds with h | ⟨s, h⟩
  · rw [h]
    simp only [if_true, List.nil_append]
    cases hl : (layout quote ext 0 0 ds).2 with
    | nil => rfl
    | cons l ls => simp [moreLines, joinLines]
  · rw [h, if_neg (by simp)]
    simp [joinLines, moreLines, Line.render]

end

theorem bodyText_blockText (isPrint : Char → Bool) (o : BuildOptions) (ds : List Directive) :
    bodyText isPrint o ds = dropFinalLF (dropFirstLF (blockText (Enquote isPrint) (buildSetup o).ext (buildSetup o) 0 0 ds)) := by
  unfold bodyText
  rw [← buildSetup_indent, ← (buildSetup_keeps o).2.1, fileLines_text]

theorem dirText_eq (isPrint : Char → Bool) (o : BuildOptions) (depth : Nat) (d : Directive) :
    joinLines (indentOf o) o.tabs (layoutDir (Enquote isPrint) (buildSetup o).ext depth [] d) = dirText (Enquote isPrint) (buildSetup o).ext (buildSetup o) depth d := by
  unfold dirText
  rw [buildSetup_indent, (buildSetup_keeps o).2.1]

theorem dropFirstLF_append {x : Str} (h : x ≠ []) (y : Str) : dropFirstLF (x ++ y) = dropFirstLF x ++ y := by
  unfold dropFirstLF
  cases x with
  | nil => exact absurd rfl h
  | cons c x => by_cases hc : c = '\n' <;> simp [hc]

theorem dropFinalLF_append (x : Str) {y : Str} (h : y ≠ []) : dropFinalLF (x ++ y) = x ++ dropFinalLF y := by
  unfold dropFinalLF
  rcases List.eq_nil_or_concat y with rfl | ⟨y, c, rfl⟩
  · exact absurd rfl h
  · by_cases hc : c = '\n' <;> simp [hc, List.getLast?_append, ← List.append_assoc]

theorem dropFinalLF_end (x : Str) {c : Char} (hc : c = ';' ∨ c = '}') : dropFinalLF (x ++ [c]) = x ++ [c] := by
  unfold dropFinalLF
  rcases hc with rfl | rfl <;> simp

/-- C83.  A directive is written as itself: in any tree, at any place in blocks that are written, there is text before and after it that depends on its line only, and between
them stand its own lines, with the margin of its depth.  So an edit that keeps the line number changes nothing else. -/
theorem C83 (isPrint : Char → Bool) (o : BuildOptions) (ho : 0 ≤ o.indent) (p : Place) (hp : p.Rendered (Enquote isPrint) (buildSetup o).ext) (line : Int) :
    ∃ pre post, ∀ d, Ordinary (Enquote isPrint) (buildSetup o).ext d → d.line = line →
      buildBody isPrint (buildSetup o) (p.fill d) = some (pre ++ joinLines (indentOf o) o.tabs (layoutDir (Enquote isPrint) (buildSetup o).ext p.depth [] d) ++ post) := by
  obtain ⟨pre, post, h⟩ := Spec.Place.blockText hp (o := buildSetup o) line 0 0
  refine ⟨dropFirstLF (pre ++ ['\n']), dropFinalLF post, fun d hd hl => ?_⟩
  rw [C45_body isPrint o ho, bodyText_blockText, dirText_eq, h d hd hl, Nat.zero_add]
  obtain ⟨s, c, hs, hc⟩ := Spec.Ordinary.ends hd (o := buildSetup o) p.depth
  rw [List.append_cons, List.append_assoc, dropFirstLF_append (by simp), hs]
  by_cases hpost : post = []
  · subst hpost
    rw [List.append_nil, ← List.append_assoc, dropFinalLF_end _ hc]
    simp [dropFinalLF]
  · rw [← List.append_assoc, dropFinalLF_append _ hpost]

/-- C83.  A directive alone. -/
theorem C83_alone (isPrint : Char → Bool) (o : BuildOptions) (ho : 0 ≤ o.indent) {d : Directive} (hd : Ordinary (Enquote isPrint) (buildSetup o).ext d) :
    buildBody isPrint (buildSetup o) [d] = some (joinLines (indentOf o) o.tabs (layoutDir (Enquote isPrint) (buildSetup o).ext 0 [] d)) := by
  rw [C45_body isPrint o ho, bodyText_blockText, dirText_eq, blockText_cons (Spec.Ordinary.notOn hd _)]
  obtain ⟨s, c, hs, hc⟩ := Spec.Ordinary.ends hd (o := buildSetup o) 0
  simp only [blockText, layout, moreLines, List.flatMap_nil, List.append_nil, dropFirstLF, List.head?_cons, if_true, List.drop_succ_cons, List.drop_zero]
  rw [hs, dropFinalLF_end _ hc]

/-- C83.  The text of two lists of directives is that of the first and that of the second, on a new line, unless the second starts with a comment that belongs to the line of the
first. -/
theorem C83_concat (isPrint : Char → Bool) (o : BuildOptions) (ho : 0 ≤ o.indent) (a : List Directive) {x y : Directive} (b : List Directive)
    (hx : Ordinary (Enquote isPrint) (buildSetup o).ext x) (hy : (buildSetup o).ext (Enquote isPrint y.directive) = none) (hn : ¬ CommentOn y x.line) (h0 : ¬ CommentOn y 0) :
    ∃ s t, buildBody isPrint (buildSetup o) (a ++ [x]) = some s ∧ buildBody isPrint (buildSetup o) (y :: b) = some t ∧
      buildBody isPrint (buildSetup o) (a ++ [x] ++ y :: b) = some (s ++ '\n' :: t) := by
  refine ⟨_, _, C45_body isPrint o ho _, C45_body isPrint o ho _, ?_⟩
  rw [C45_body isPrint o ho, bodyText_blockText, bodyText_blockText, bodyText_blockText]
  have hlast : ∀ last, lastLine (Enquote isPrint) (buildSetup o).ext last (a ++ [x]) = x.line := by
    induction a with
    | nil =>
      intro last
      simp [lastLine, Spec.Ordinary.notOn hx, hx.2]
    | cons d a ih => intro last; exact ih _
  rw [blockText_append, hlast, blockText_cons hn, blockText_cons h0, hy]
  simp only [Option.isSome_none, Bool.false_eq_true, if_false, List.cons_append]
  have hyne : ∀ more, dirText (Enquote isPrint) (buildSetup o).ext (buildSetup o) 0 y ++ more ≠ [] := by
    intro more h
    have h := (List.append_eq_nil_iff.mp h).1
    by_cases hc : y.directive = c!"#" ∧ y.comment ≠ none
    · obtain ⟨dd, dl, dargs, df, dincl, dblock, dcomm, dmap⟩ := y
      obtain ⟨rfl, hcomm⟩ := hc
      unfold dirText layoutDir at h
      simp only at hy hcomm h
      rw [hy] at h
      simp only [if_true] at h
      cases dcomm with
      | none => exact hcomm rfl
      | some text => simp [joinLines, Line.render] at h
    · obtain ⟨s, c, hs, -⟩ := Spec.Ordinary.ends (o := buildSetup o) (⟨hc, hy⟩ : Ordinary (Enquote isPrint) (buildSetup o).ext y) 0
      rw [hs] at h
      simp at h
  have hY := hyne (blockText (Enquote isPrint) (buildSetup o).ext (buildSetup o) 0 y.line b)
  generalize dirText (Enquote isPrint) (buildSetup o).ext (buildSetup o) 0 y ++ blockText (Enquote isPrint) (buildSetup o).ext (buildSetup o) 0 y.line b = Y at hY ⊢
  have hA : ∃ z c, blockText (Enquote isPrint) (buildSetup o).ext (buildSetup o) 0 0 (a ++ [x]) = z ++ [c] ∧ z ≠ [] ∧ (c = ';' ∨ c = '}') := by
    obtain ⟨s, c, hs, hc⟩ := Spec.Ordinary.ends hx (o := buildSetup o) 0
    refine ⟨blockText (Enquote isPrint) (buildSetup o).ext (buildSetup o) 0 0 a ++ '\n' :: s, c, ?_, ?_, hc⟩
    · rw [blockText_append, blockText_cons (Spec.Ordinary.notOn hx _), hs]
      simp [blockText, layout, moreLines]
    · simp
  obtain ⟨z, c, hA, hz, hc⟩ := hA
  rw [dropFirstLF_append (by rw [hA]; simp), dropFinalLF_append _ (by simp), show '\n' :: Y = ['\n'] ++ Y from rfl, dropFinalLF_append _ hY, hA,
    dropFirstLF_append hz, dropFinalLF_end _ hc]
  simp [dropFirstLF]

/-- A place in a block. -/
def exPlace : Place := .within [dir c!"a" 1 []] (blk c!"b" 2 [] []) (.here [dir c!"c" 3 []] [⟨c!"#", 4, [], [], none, none, some c!"d", false⟩]) [dir c!"e" 5 []]

example : buildBody (fun _ => true) (buildSetup { indent := 2 }) (exPlace.fill (dir c!"x" 4 [c!"y z"])) =
    some (c!"a;\nb {\n  c;\n  " ++ c!"x \"y z\";" ++ c!" #d\n}\ne;") := by decide +kernel

example : buildBody (fun _ => true) (buildSetup { indent := 2 }) (exPlace.fill (blk c!"x" 4 [] [dir c!"y" 9 []])) =
    some (c!"a;\nb {\n  c;\n  " ++ c!"x {\n    y;\n  }" ++ c!" #d\n}\ne;") := by decide +kernel

example : exPlace.Rendered (Enquote fun _ => true) (buildSetup { indent := 2 }).ext ∧ exPlace.depth = 1 :=
  ⟨⟨⟨by decide, by decide⟩, trivial⟩, rfl⟩

example : buildBody (fun _ => true) (buildSetup {}) ([dir c!"a" 1 []] ++ [blk c!"b" 2 [] []] ++ dir c!"c" 2 [] :: []) = some (c!"a;\nb {\n}" ++ '\n' :: c!"c;") := by decide +kernel

/-- C83 needs the line: a directive on another line takes away, or leaves alone, the comment that follows it. -/
theorem C83_false_line : ¬ ∃ pre post, ∀ d : Directive, Ordinary (Enquote fun _ => true) (buildSetup {}).ext d →
    buildBody (fun _ => true) (buildSetup {}) ((Place.here [] [⟨c!"#", 1, [], [], none, none, some c!"c", false⟩]).fill d) =
      some (pre ++ joinLines (indentOf {}) false (layoutDir (Enquote fun _ => true) (buildSetup {}).ext 0 [] d) ++ post) := by
  rintro ⟨pre, post, h⟩
  have h1 := h (dir c!"a" 1 []) ⟨by decide, by decide⟩
  have h2 := h (dir c!"a" 2 []) ⟨by decide, by decide⟩
  have e : joinLines (indentOf {}) false (layoutDir (Enquote fun _ => true) (buildSetup {}).ext 0 [] (dir c!"a" 1 [])) =
      joinLines (indentOf {}) false (layoutDir (Enquote fun _ => true) (buildSetup {}).ext 0 [] (dir c!"a" 2 [])) := by decide +kernel
  rw [e] at h1
  exact absurd (h1.trans h2.symm) (by decide +kernel)

/-- C83_concat needs its condition on the comment: it joins the line of what stands before it. -/
theorem C83_false_concat : ∃ s t, buildBody (fun _ => true) (buildSetup {}) [dir c!"a" 1 []] = some s ∧
    buildBody (fun _ => true) (buildSetup {}) [⟨c!"#", 1, [], [], none, none, some c!"c", false⟩] = some t ∧
    buildBody (fun _ => true) (buildSetup {}) [dir c!"a" 1 [], ⟨c!"#", 1, [], [], none, none, some c!"c", false⟩] ≠ some (s ++ '\n' :: t) :=
  ⟨c!"a;", c!"#c", by decide +kernel, by decide +kernel, by decide +kernel⟩

end Verif
