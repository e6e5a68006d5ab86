import Verif.Model.Build
import Verif.Spec.Layout
import Verif.Props.Ex
import Verif.Spec.Expand
import Mathlib.Data.List.Forall2
/-!
# C45, C46, C47, C48: what Build writes
-/
namespace Verif
open Spec

/-! ## C45 -/

/-- C45: the margin. -/
theorem C45_margin (o : BuildOptions) (h : 0 < o.indent) (depth : Nat) :
    margin o depth = some (if o.tabs then List.replicate depth '\t' else List.replicate (depth * o.indent.toNat) ' ') := by
  unfold margin
  obtain ⟨n, hn⟩ := Int.eq_ofNat_of_zero_le (Int.le_of_lt h)
  have e1 : ((depth : Int) * o.indent).toNat = depth * o.indent.toNat := by
    rw [hn, ← Int.natCast_mul, Int.toNat_natCast]; simp
  have e2 : (o.indent * (depth : Int)).toNat = depth * o.indent.toNat := by rw [Int.mul_comm, e1]
  have h0 : 0 ≤ (depth : Int) * o.indent := Int.mul_nonneg (Int.natCast_nonneg _) (Int.le_of_lt h)
  have h1 : (depth : Int) ≤ depth * o.indent := by
    have := Int.mul_le_mul_of_nonneg_left (show 1 ≤ o.indent by omega) (Int.natCast_nonneg depth)
    omega
  simp only [e1, e2]
  cases ht : o.tabs with
  | true =>
    by_cases hlt : (depth : Int) * o.indent < (maxIndent : Int)
    · have : depth ≤ maxIndent := by omega
      simp [hlt, this]
    · simp [hlt]
  | false =>
    by_cases hlt : (depth : Int) * o.indent < (maxIndent : Int)
    · simp [hlt, h0]
    · simp [hlt]

theorem joinStr_spaced (l : List Str) : joinStr c!" " l = spaced l := by
  induction l with
  | nil => rfl
  | cons a as ih =>
    cases as with
    | nil => simp [joinStr, spaced]
    | cons b bs =>
      rw [joinStr, ih]
      simp [spaced]

theorem headText_eq (isPrint : Char → Bool) (dd : Str) (dargs : List Str) :
    Enquote isPrint dd ++ buildArgs isPrint (Enquote isPrint dd) dargs = headText (Enquote isPrint) dd dargs := by
  unfold buildArgs headText
  by_cases h : Enquote isPrint dd = c!"if"
  · rw [if_pos (by simp [h]), if_pos h, h, joinStr_spaced]
    simp
  · rw [if_neg (by simpa using h), if_neg h]
    simp [spaced, List.flatMap_map]

theorem sameLineComment_iff (d : Directive) (line : Int) : sameLineComment d line = true ↔ CommentOn d line := by
  unfold sameLineComment CommentOn Directive.isComment
  cases d.comment with
  | none => simp
  | some c => simp [and_comm]

/-- The lines after the current one. -/
def moreLines (o : BuildOptions) (ls : List Line) : Str := ls.flatMap fun l => '\n' :: l.render o.indent.toNat o.tabs

theorem moreLines_append (o : BuildOptions) (a b : List Line) : moreLines o (a ++ b) = moreLines o a ++ moreLines o b := by simp [moreLines]

theorem moreLines_cons (o : BuildOptions) (l : Line) (ls : List Line) :
    moreLines o (l :: ls) = '\n' :: l.render o.indent.toNat o.tabs ++ moreLines o ls := by simp [moreLines]

/-- The margin of a line. -/
def marginOf (o : BuildOptions) (depth : Nat) : Str := if o.tabs then List.replicate depth '\t' else List.replicate (depth * o.indent.toNat) ' '

theorem render_eq (o : BuildOptions) (l : Line) : l.render o.indent.toNat o.tabs = marginOf o l.depth ++ l.text := rfl

theorem last_line (o : BuildOptions) (ls : List Line) (d : Nat) (x tail : Str) :
    moreLines o (ls ++ [⟨d, x ++ tail⟩]) = moreLines o (ls ++ [⟨d, x⟩]) ++ tail := by
  simp [moreLines_append, moreLines_cons, moreLines, render_eq]

/-- The text of a directive that is not put at the end of a line: its lines, the first without line feed. -/
theorem layoutDir_tail (quote : Str → Str) (ext : Str → Option (Directive → Str)) (o : BuildOptions) (depth : Nat) (tail : Str) (d : Directive) :
    moreLines o (layoutDir quote ext depth tail d) = moreLines o (layoutDir quote ext depth [] d) ++ tail := by
  obtain ⟨dd, dl, dargs, df, dincl, dblock, dcomm, dmap⟩ := d
  unfold layoutDir
  cases ext (quote dd) with
  | some b => simp [moreLines, render_eq]
  | none =>
    simp only
    cases (if dd = c!"#" then dcomm else none) with
    | some text => simp [moreLines, render_eq]
    | none =>
      simp only
      cases dblock with
      | none => simp [layoutBlock, moreLines, render_eq]
      | some ds => simp [layoutBlock, moreLines, render_eq]

mutual
theorem buildStmt_layout (isPrint : Char → Bool) (o : BuildOptions) (h : 0 < o.indent) (depth : Nat) : (d : Directive) →
    ∃ s, buildStmt isPrint o depth d = some (s, (o.ext (Enquote isPrint d.directive)).isNone) ∧
      moreLines o (layoutDir (Enquote isPrint) o.ext depth [] d) = '\n' :: s
  | ⟨dd, dl, dargs, df, dincl, dblock, dcomm, dmap⟩ => by
    unfold buildStmt layoutDir
    simp only [C45_margin o h, bind, Option.bind]
    cases o.ext (Enquote isPrint dd) with
    | some b => refine ⟨_, rfl, ?_⟩; simp [moreLines, render_eq, marginOf]
    | none =>
      simp only [beq_iff_eq]
      cases (if dd = c!"#" then dcomm else none) with
      | some text => refine ⟨_, rfl, ?_⟩; simp [moreLines, render_eq, marginOf]
      | none =>
        obtain ⟨s, h1, h2⟩ := buildOpt_layout isPrint o h depth dl (headText (Enquote isPrint) dd dargs) dblock
        simp only [h1]
        refine ⟨_, rfl, ?_⟩
        rw [h2, ← headText_eq]
        simp [marginOf]
theorem buildOpt_layout (isPrint : Char → Bool) (o : BuildOptions) (h : 0 < o.indent) (depth : Nat) (line : Int) (head : Str) :
    (b : Option (List Directive)) → ∃ s, buildOpt isPrint o depth line b = some s ∧
      moreLines o (layoutBlock (Enquote isPrint) o.ext depth [] head line b) = '\n' :: (marginOf o depth ++ (head ++ s))
  | none => ⟨_, rfl, by simp [layoutBlock, moreLines, render_eq]⟩
  | some ds => by
    unfold buildOpt layoutBlock
    have h1 := buildBlock_layout isPrint o h true (depth + 1) line true (Or.inl rfl) ds
    simp only [h1, C45_margin o h, bind, Option.bind]
    refine ⟨_, rfl, ?_⟩
    simp [moreLines_cons, moreLines_append, render_eq, marginOf]
    simp [moreLines]
theorem buildBlock_layout (isPrint : Char → Bool) (o : BuildOptions) (h : 0 < o.indent) (hasParent : Bool) (depth : Nat) (lastLine : Int) (first : Bool)
    (hf : hasParent = true ∨ first = false) : (ds : List Directive) →
    buildBlock isPrint o hasParent depth lastLine first ds =
      some ((layout (Enquote isPrint) o.ext depth lastLine ds).1 ++ moreLines o (layout (Enquote isPrint) o.ext depth lastLine ds).2)
  | [] => rfl
  | d :: ds => by
    unfold buildBlock layout
    by_cases hc : CommentOn d lastLine
    · rw [if_pos ((sameLineComment_iff _ _).mpr hc), if_pos hc, buildBlock_layout isPrint o h hasParent depth lastLine false (Or.inr rfl) ds]
      simp
    · rw [if_neg (by rw [sameLineComment_iff]; exact hc), if_neg hc]
      obtain ⟨s, h1, h2⟩ := buildStmt_layout isPrint o h depth d
      have hnl : (!first || hasParent) = true := by rcases hf with h | h <;> simp [h]
      simp only [h1, hnl, bind, Option.bind, if_true]
      have hcond : (if (o.ext (Enquote isPrint d.directive)).isNone = true then d.line else lastLine) =
          (if (o.ext (Enquote isPrint d.directive)).isSome = true then lastLine else d.line) := by
        cases o.ext (Enquote isPrint d.directive) <;> rfl
      rw [buildBlock_layout isPrint o h hasParent depth _ false (Or.inr rfl) ds, hcond, moreLines_append, layoutDir_tail, h2]
      simp
end

/-- C45: the text of the directives of a file consists of the lines of the layout, each with the margin of its depth. -/
theorem C45_lines (isPrint : Char → Bool) (o : BuildOptions) (h : 0 < o.indent) (ds : List Directive) :
    buildBlock isPrint o false 0 0 true ds = some (joinLines o.indent.toNat o.tabs (fileLines (Enquote isPrint) o.ext ds)) := by
  cases ds with
  | nil => rfl
  | cons d ds =>
    unfold fileLines
    by_cases hc : CommentOn d 0
    · have hb : buildBlock isPrint o false 0 0 true (d :: ds) = buildBlock isPrint o true 0 0 true (d :: ds) := by
        unfold buildBlock
        rw [if_pos ((sameLineComment_iff _ _).mpr hc), if_pos ((sameLineComment_iff _ _).mpr hc),
          buildBlock_layout isPrint o h false 0 0 false (Or.inr rfl), buildBlock_layout isPrint o h true 0 0 false (Or.inr rfl)]
      rw [hb, buildBlock_layout isPrint o h true 0 0 true (Or.inl rfl)]
      have hne : (layout (Enquote isPrint) o.ext 0 0 (d :: ds)).1 ≠ [] := by
        unfold layout; rw [if_pos hc]; simp
      rw [if_neg hne]
      simp [joinLines, Line.render, moreLines]
    · unfold buildBlock
      rw [if_neg (by rw [sameLineComment_iff]; exact hc)]
      obtain ⟨s, h1, h2⟩ := buildStmt_layout isPrint o h 0 d
      simp only [h1, bind, Option.bind]
      rw [buildBlock_layout isPrint o h false 0 _ false (Or.inr rfl) ds]
      rw [layout, if_neg hc]
      simp only [if_true, List.nil_append]
      have hcond : (if (o.ext (Enquote isPrint d.directive)).isNone = true then d.line else (0 : Int)) =
          (if (o.ext (Enquote isPrint d.directive)).isSome = true then 0 else d.line) := by
        cases o.ext (Enquote isPrint d.directive) <;> rfl
      rw [hcond]
      generalize hl : layoutDir _ _ _ _ d ++ _ = l
      have hjoin : ∀ l : List Line, l ≠ [] → moreLines o l = '\n' :: joinLines o.indent.toNat o.tabs l := by
        intro l hl
        cases l with
        | nil => exact absurd rfl hl
        | cons a as => simp [moreLines, joinLines]
      have hne : l ≠ [] := by
        rw [← hl]
        have : layoutDir (Enquote isPrint) o.ext 0 [] d ≠ [] := by
          intro hn; rw [hn] at h2; cases h2
        intro hn
        rw [List.append_eq_nil_iff] at hn
        have h3 := layoutDir_tail (Enquote isPrint) o.ext o 0
          (layout (Enquote isPrint) o.ext 0 (if (o.ext (Enquote isPrint d.directive)).isSome = true then 0 else d.line) ds).1 d
        rw [hn.1, h2] at h3
        cases h3
      have h4 := hjoin l hne
      rw [← hl, moreLines_append, layoutDir_tail, h2, hl] at h4
      simp only [List.cons_append, List.cons.injEq, true_and] at h4
      rw [← h4]
      simp

theorem applyBuilders_keeps (o : BuildOptions) :
    (applyBuilders o).indent = o.indent ∧ (applyBuilders o).tabs = o.tabs ∧ (applyBuilders o).header = o.header ∧ (applyBuilders o).builders = o.builders := by
  unfold applyBuilders
  suffices h : ∀ (regs : List RegisterBuilder) (o : BuildOptions), (regs.foldl (fun o rb => rb.apply o) o).indent = o.indent ∧ (regs.foldl (fun o rb => rb.apply o) o).tabs = o.tabs ∧
      (regs.foldl (fun o rb => rb.apply o) o).header = o.header ∧ (regs.foldl (fun o rb => rb.apply o) o).builders = o.builders by
    exact h o.builders o
  intro regs
  induction regs with
  | nil => intro o; exact ⟨rfl, rfl, rfl, rfl⟩
  | cons r regs ih => intro o; rw [List.foldl_cons]; exact ih (r.apply o)

/-- The indentation Build uses: 4 if 0 is given. -/
def indentOf (o : BuildOptions) : Nat := if o.indent = 0 then 4 else o.indent.toNat

theorem buildSetup_keeps (o : BuildOptions) : (buildSetup o).indent = (if o.indent = 0 then 4 else o.indent) ∧ (buildSetup o).tabs = o.tabs ∧
    (buildSetup o).header = o.header ∧ (buildSetup o).builders = o.builders := by
  unfold buildSetup
  by_cases h : o.indent = 0
  · simp only [h, beq_self_eq_true, if_true]
    by_cases he : o.extBuilders.isNone = true
    · rw [if_pos he]; exact applyBuilders_keeps { o with indent := 4 }
    · rw [if_neg he]; exact ⟨rfl, rfl, rfl, rfl⟩
  · simp only [beq_iff_eq, if_neg h]
    by_cases he : o.extBuilders.isNone = true
    · rw [if_pos he]; exact applyBuilders_keeps o
    · rw [if_neg he]; exact ⟨rfl, rfl, rfl, rfl⟩

theorem buildSetup_indent (o : BuildOptions) : (buildSetup o).indent.toNat = indentOf o := by
  rw [(buildSetup_keeps o).1]; unfold indentOf; by_cases h : o.indent = 0 <;> simp [h]

/-- A text without the line feed at its end, if there is one. -/
def dropFinalLF (s : Str) : Str := if s.getLast? = some '\n' then s.dropLast else s

/-- The body of a config: the lines of its directives. -/
def bodyText (isPrint : Char → Bool) (o : BuildOptions) (ds : List Directive) : Str :=
  dropFinalLF (joinLines (indentOf o) o.tabs (fileLines (Enquote isPrint) (buildSetup o).ext ds))

/-- C45: for a non-negative indent Build does not panic; the body consists of the lines of the layout. -/
theorem C45_body (isPrint : Char → Bool) (o : BuildOptions) (h : 0 ≤ o.indent) (ds : List Directive) :
    buildBody isPrint (buildSetup o) ds = some (bodyText isPrint o ds) := by
  have hi : 0 < (buildSetup o).indent := by
    rw [(buildSetup_keeps o).1]; split <;> omega
  unfold buildBody bodyText dropFinalLF
  rw [C45_lines isPrint _ hi, buildSetup_indent, (buildSetup_keeps o).2.1]
  simp [bind, Option.bind]

/-- C45: Build does not panic for a non-negative indent. -/
theorem C45_no_panic {σ : Type} (isPrint : Char → Bool) (w : Writer σ) (s : σ) (config : Config) (o : BuildOptions) (h : 0 ≤ o.indent) :
    Build isPrint w s config o ≠ none := by
  unfold Build
  simp only [C45_body isPrint o h]
  generalize (if o.header = true then w.write s header else (s, none)) = r
  obtain ⟨s1, _ | e⟩ := r <;> simp [bind, Option.bind]

/-- For a negative indent Build panics on a directive in a block. -/
theorem C45_negative : ∃ (o : BuildOptions) (ds : List Directive), o.indent = -1 ∧ o.tabs = false ∧ buildBody (fun _ => true) (buildSetup o) ds = none :=
  ⟨{ indent := -1 }, [blk c!"a" 1 [] [dir c!"b" 2 []]], rfl, rfl, rfl⟩

example : bodyText (fun _ => true) { indent := 2 } [blk c!"a" 1 [c!"x y"]
    [⟨c!"#", 1, [], [], none, none, some c!"c", false⟩, blk c!"if" 2 [c!"p", c!"q"] []], dir c!"b" 3 []] = c!"a \"x y\" { #c\n  if (p q) {\n  }\n}\nb;" := by decide +kernel
/-- Depth 101 with tabs and one blank of indent: the slice of 100 tabs is not used. -/
example : margin { indent := 1, tabs := true } 101 = some (List.replicate 101 '\t') := by decide +kernel

/-! ## C48 -/

/-- The builder of the last registration that has the name. -/
def lastBuilder (regs : List RegisterBuilder) (name : Str) : Option Builder := (regs.reverse.find? fun r => decide (name ∈ r.directives)).map (·.b)

theorem apply_ext (r : RegisterBuilder) (o : BuildOptions) (name : Str) :
    (r.apply o).ext name = if name ∈ r.directives then some r.b else o.ext name := by
  unfold RegisterBuilder.apply BuildOptions.ext
  simp only [Option.bind_some]
  have h0 : o.extBuilders.bind (fun m => m name) = (o.extBuilders.getD (fun _ => none)) name := by
    cases o.extBuilders <;> rfl
  rw [h0]
  generalize o.extBuilders.getD (fun _ => none) = m
  obtain ⟨b, dirs⟩ := r
  simp only
  induction dirs generalizing m with
  | nil => simp
  | cons s dirs ih =>
    rw [List.foldl_cons, ih]
    by_cases h1 : name ∈ dirs
    · simp [h1]
    · by_cases h2 : name = s <;> simp [h1, h2]

theorem applyBuilders_ext (o : BuildOptions) (name : Str) : (applyBuilders o).ext name = (lastBuilder o.builders name).or (o.ext name) := by
  have key : ∀ (regs : List RegisterBuilder) (o : BuildOptions),
      (regs.foldl (fun o rb => rb.apply o) o).ext name = (lastBuilder regs name).or (o.ext name) := by
    intro regs
    induction regs with
    | nil => intro o; rfl
    | cons r regs ih =>
      intro o
      rw [List.foldl_cons, ih, apply_ext]
      unfold lastBuilder
      rw [List.reverse_cons, List.find?_append]
      cases regs.reverse.find? (fun r => decide (name ∈ r.directives)) with
      | some x => simp
      | none => by_cases hm : name ∈ r.directives <;> simp [hm]
  exact key o.builders o

/-- C48: the last registration of a name wins. -/
theorem C48_last (o : BuildOptions) (h : o.extBuilders = none) (name : Str) : (buildSetup o).ext name = lastBuilder o.builders name := by
  unfold buildSetup
  by_cases hi : o.indent = 0
  · simp only [hi, beq_self_eq_true, if_true, h, Option.isNone_none]
    rw [applyBuilders_ext]; simp [BuildOptions.ext]
  · simp only [beq_iff_eq, hi, if_false, h, Option.isNone_none, if_true]
    rw [applyBuilders_ext]; simp [BuildOptions.ext, h]

/-- C48: a directive whose quoted name is registered is rendered by its builder, after line feed and margin, whatever its block. -/
theorem C48_rendered (isPrint : Char → Bool) (o : BuildOptions) (h : 0 < o.indent) (depth : Nat) (last : Int) (first : Bool) (d : Directive) (ds : List Directive)
    (b : Builder) (hc : ¬ CommentOn d last) (hb : o.ext (Enquote isPrint d.directive) = some b) :
    ∃ rest, buildBlock isPrint o true depth last first ds = some rest ∧
      buildBlock isPrint o true depth last first (d :: ds) = some ('\n' :: marginOf o depth ++ b d ++ rest) := by
  refine ⟨_, buildBlock_layout isPrint o h true depth last first (Or.inl rfl) ds, ?_⟩
  rw [buildBlock_layout isPrint o h true depth last first (Or.inl rfl) (d :: ds), layout, if_neg hc]
  simp only [hb, Option.isSome_some, if_true]
  have : layoutDir (Enquote isPrint) o.ext depth (layout (Enquote isPrint) o.ext depth last ds).1 d =
      [⟨depth, b d ++ (layout (Enquote isPrint) o.ext depth last ds).1⟩] := by
    obtain ⟨dd, dl, dargs, df, dincl, dblock, dcomm, dmap⟩ := d
    unfold layoutDir
    simp only at hb
    rw [hb]
  rw [this]
  simp [moreLines_cons, render_eq]

theorem Within.mono {x : Directive} {a b : List Directive} (h : Within x a) (hs : ∀ d ∈ a, d ∈ b) : Within x b := by
  cases h with
  | here hm => exact .here (hs _ hm)
  | deep hm hb h => exact .deep (hs _ hm) hb h

mutual
theorem layoutDir_unregistered (quote : Str → Str) (ext : Str → Option (Directive → Str)) (depth : Nat) (tail : Str) : (d : Directive) →
    (∀ x, Within x [d] → ext (quote x.directive) = none) → layoutDir quote ext depth tail d = layoutDir quote (fun _ => none) depth tail d
  | ⟨dd, dl, dargs, df, dincl, dblock, dcomm, dmap⟩, h => by
    unfold layoutDir
    rw [show ext (quote dd) = none from h _ (.here (List.mem_singleton.mpr rfl))]
    simp only
    rw [layoutBlock_unregistered quote ext depth tail (headText quote dd dargs) dl dblock
      (fun ds hd x hx => h x (.deep (List.mem_singleton.mpr rfl) hd hx))]
theorem layoutBlock_unregistered (quote : Str → Str) (ext : Str → Option (Directive → Str)) (depth : Nat) (tail head : Str) (line : Int) :
    (b : Option (List Directive)) → (∀ ds, b = some ds → ∀ x, Within x ds → ext (quote x.directive) = none) →
    layoutBlock quote ext depth tail head line b = layoutBlock quote (fun _ => none) depth tail head line b
  | none, _ => rfl
  | some ds, h => by
    unfold layoutBlock
    rw [layout_unregistered quote ext (depth + 1) line ds (h ds rfl)]
theorem layout_unregistered (quote : Str → Str) (ext : Str → Option (Directive → Str)) (depth : Nat) (last : Int) : (ds : List Directive) →
    (∀ x, Within x ds → ext (quote x.directive) = none) → layout quote ext depth last ds = layout quote (fun _ => none) depth last ds
  | [], _ => rfl
  | d :: ds, h => by
    have h1 : ∀ x, Within x [d] → ext (quote x.directive) = none := fun x hx => h x (Within.mono hx (by simp))
    have h2 : ∀ x, Within x ds → ext (quote x.directive) = none := fun x hx => h x (Within.mono hx (fun _ hm => List.mem_cons_of_mem _ hm))
    unfold layout
    rw [h1 d (.here (List.mem_singleton.mpr rfl))]
    simp only [layout_unregistered quote ext depth _ ds h2, layoutDir_unregistered quote ext depth _ d h1]
end

/-- C48: if no directive has a registered name, the text is that without builders. -/
theorem C48_others (isPrint : Char → Bool) (o : BuildOptions) (ho : o.extBuilders = none) (ds : List Directive)
    (h : ∀ x, Within x ds → ∀ r ∈ o.builders, Enquote isPrint x.directive ∉ r.directives) :
    bodyText isPrint o ds = bodyText isPrint { o with builders := [] } ds := by
  have hn : ∀ x, Within x ds → (buildSetup o).ext (Enquote isPrint x.directive) = none := by
    intro x hx
    rw [C48_last o ho]
    unfold lastBuilder
    rw [Option.map_eq_none_iff, List.find?_eq_none]
    intro r hr
    simpa using h x hx r (List.mem_reverse.mp hr)
  have hn2 : ∀ x, Within x ds → (buildSetup { o with builders := [] }).ext (Enquote isPrint x.directive) = none := by
    intro x _
    rw [C48_last { o with builders := [] } ho]
    rfl
  unfold bodyText fileLines
  rw [layout_unregistered _ _ _ _ _ hn, layout_unregistered _ _ _ _ _ hn2]
  rfl

example : bodyText (fun _ => true) { builders := [⟨fun _ => c!"1", [c!"a", c!"b"]⟩, ⟨fun d => c!"2 " ++ d.directive, [c!"b"]⟩] }
    [dir c!"a" 1 [], dir c!"b" 1 [], dir c!"c" 1 []] = c!"1\n2 b\nc;" := by decide +kernel

/-! ## C46 -/

/-- The operations on a creator. -/
inductive Op where
  | create (file : Str)
  | write (text : Str)
  | close

def Op.run {σ : Type} (c : Creator σ) (s : σ) : Op → σ × Option GoErr
  | .create file => c.create s file
  | .write text => c.write s text
  | .close => c.close s

/-- Operations one after the other, up to the first that fails. -/
def runOps {σ : Type} (c : Creator σ) : List Op → σ → Option GoErr × σ
  | [], s => (none, s)
  | op :: ops, s =>
    match op.run c s with
    | (s, some e) => (some e, s)
    | (s, none) => runOps c ops s

/-- The writes of one config. -/
def writesOf (isPrint : Char → Bool) (o : BuildOptions) (c : Config) : List Op :=
  (if o.header then [Op.write header] else []) ++ [Op.write (bodyText isPrint o c.parsed)]

/-- The options after a run of Build give the same text. -/
structure SameText (o o' : BuildOptions) : Prop where
  indent : indentOf o = indentOf o'
  nonneg : 0 ≤ o'.indent
  tabs : o.tabs = o'.tabs
  header : o.header = o'.header
  ext : (buildSetup o).ext = (buildSetup o').ext

theorem SameText.body {o o' : BuildOptions} (h : SameText o o') (isPrint : Char → Bool) (ds : List Directive) :
    bodyText isPrint o ds = bodyText isPrint o' ds := by
  unfold bodyText; rw [h.indent, h.tabs, h.ext]

theorem SameText.writes {o o' : BuildOptions} (h : SameText o o') (isPrint : Char → Bool) (c : Config) :
    writesOf isPrint o c = writesOf isPrint o' c := by
  unfold writesOf; rw [h.header, h.body]

theorem setup_nil (o : BuildOptions) (h : o.extBuilders = none) (hb : o.builders = []) : (buildSetup o).extBuilders = none := by
  unfold buildSetup applyBuilders
  by_cases hi : o.indent = 0 <;> simp [hi, h, hb]

theorem ext_some (regs : List RegisterBuilder) (hne : regs ≠ []) (o : BuildOptions) : (regs.foldl (fun o rb => rb.apply o) o).extBuilders.isSome = true := by
  induction regs generalizing o with
  | nil => exact absurd rfl hne
  | cons r regs ih =>
    rw [List.foldl_cons]
    cases regs with
    | nil => rfl
    | cons r2 regs => exact ih (by simp) _

theorem buildSetup_idem (o : BuildOptions) : (buildSetup (buildSetup o)).ext = (buildSetup o).ext := by
  have hs : ∀ p : BuildOptions, p.extBuilders.isSome = true → (buildSetup p).ext = p.ext := by
    intro p hp
    unfold buildSetup
    have hn : ¬ p.extBuilders.isNone = true := by cases h : p.extBuilders <;> simp_all
    by_cases hi : p.indent = 0
    · simp [hi, hn]; rfl
    · simp [hi, hn]
  cases he : o.extBuilders with
  | some m =>
    have h1 := hs o (by rw [he]; rfl)
    refine hs _ ?_
    unfold buildSetup
    by_cases hi : o.indent = 0 <;> simp [hi, he]
  | none =>
    by_cases hb : o.builders = []
    · have h1 := setup_nil o he hb
      have h2 := setup_nil (buildSetup o) h1 (by rw [(buildSetup_keeps o).2.2.2, hb])
      unfold BuildOptions.ext; rw [h1, h2]
    · refine hs _ ?_
      unfold buildSetup
      by_cases hi : o.indent = 0
      · simp only [hi, beq_self_eq_true, if_true, he, Option.isNone_none]
        exact ext_some _ hb _
      · simp only [beq_iff_eq, hi, if_false, he, Option.isNone_none, if_true]
        exact ext_some _ hb _

theorem sameText_setup (o : BuildOptions) (h : 0 ≤ o.indent) : SameText o (buildSetup o) := by
  obtain ⟨h1, h2, h3, h4⟩ := buildSetup_keeps o
  refine ⟨?_, by rw [h1]; split <;> omega, h2.symm, h3.symm, (buildSetup_idem o).symm⟩
  unfold indentOf
  rw [h1]
  by_cases hi : o.indent = 0 <;> simp [hi]

theorem SameText.trans {a b c : BuildOptions} (h1 : SameText a b) (h2 : SameText b c) : SameText a c :=
  ⟨h1.indent.trans h2.indent, h2.nonneg, h1.tabs.trans h2.tabs, h1.header.trans h2.header, h1.ext.trans h2.ext⟩

theorem SameText.refl {o : BuildOptions} (h : 0 ≤ o.indent) : SameText o o := ⟨rfl, h, rfl, rfl, rfl⟩

/-- C46: Build writes the header, if requested, and the body; the error is that of the first failing write. -/
theorem C46_build {σ : Type} (isPrint : Char → Bool) (c : Creator σ) (s : σ) (config : Config) (o : BuildOptions) (h : 0 ≤ o.indent) :
    ∃ o', Build isPrint ⟨c.write⟩ s config o = some ((runOps c (writesOf isPrint o config) s).1, (runOps c (writesOf isPrint o config) s).2, o') ∧
      SameText o o' := by
  have h4 : SameText o (if o.indent == 0 then { o with indent := 4 } else o) := by
    by_cases hi : o.indent = 0
    · simp only [hi, beq_self_eq_true, if_true]
      refine ⟨by simp [indentOf, hi], by simp, rfl, rfl, ?_⟩
      simp [buildSetup, hi]
    · simp only [beq_iff_eq, hi, if_false]
      exact .refl h
  unfold Build writesOf
  simp only [C45_body isPrint o h]
  by_cases hh : o.header = true
  · simp only [hh, if_true, List.cons_append, List.nil_append, runOps, Op.run]
    cases hw : c.write s header with
    | mk s1 e1 =>
      cases e1 with
      | some e => exact ⟨_, rfl, by rw [hh] at h4; exact h4⟩
      | none =>
        simp only [bind, Option.bind]
        cases hw2 : c.write s1 (bodyText isPrint o config.parsed) with
        | mk s2 e2 => cases e2 with
          | some e => exact ⟨_, rfl, sameText_setup o h⟩
          | none => exact ⟨_, rfl, sameText_setup o h⟩
  · simp only [hh, if_false, List.nil_append, runOps, Op.run, bind, Option.bind, Bool.false_eq_true]
    cases hw2 : c.write s (bodyText isPrint o config.parsed) with
    | mk s2 e2 => cases e2 with
      | some e => exact ⟨_, rfl, sameText_setup o h⟩
      | none => exact ⟨_, rfl, sameText_setup o h⟩

theorem runOps_append {σ : Type} (c : Creator σ) (a b : List Op) (s : σ) :
    runOps c (a ++ b) s = match runOps c a s with
      | (some e, s) => (some e, s)
      | (none, s) => runOps c b s := by
  induction a generalizing s with
  | nil => rfl
  | cons op a ih =>
    rw [List.cons_append, runOps, runOps]
    cases op.run c s with
    | mk s1 e1 => cases e1 with
      | some e => rfl
      | none => exact ih s1

/-- The operations of BuildInto: for every config, in order, its file is created, written and closed. -/
def opsInto (isPrint : Char → Bool) (o : BuildOptions) (configs : List Config) : List Op :=
  configs.flatMap fun c => .create c.file :: (writesOf isPrint o c ++ [.close])

/-- C46: BuildInto does these operations up to the first that fails. -/
theorem C46_into {σ : Type} (isPrint : Char → Bool) (c : Creator σ) (s : σ) (configs : List Config) (o : BuildOptions) (h : 0 ≤ o.indent) :
    ∃ o', BuildInto isPrint c s o configs =
      some ((runOps c (opsInto isPrint o configs) s).1, (runOps c (opsInto isPrint o configs) s).2, o') ∧ SameText o o' := by
  induction configs generalizing s o with
  | nil => exact ⟨o, rfl, .refl h⟩
  | cons cfg configs ih =>
    unfold BuildInto
    simp only [opsInto, List.flatMap_cons, List.cons_append, List.append_assoc, runOps, Op.run]
    cases c.create s cfg.file with
    | mk s1 e1 => cases e1 with
      | some e => exact ⟨o, rfl, .refl h⟩
      | none =>
        simp only
        obtain ⟨o1, hb, hs⟩ := C46_build isPrint c s1 cfg o h
        rw [hb, runOps_append]
        cases runOps c (writesOf isPrint o cfg) s1 with
        | mk e2 s2 => cases e2 with
          | some e => exact ⟨o1, rfl, hs⟩
          | none =>
            simp only [List.nil_append, runOps, Op.run]
            cases c.close s2 with
            | mk s3 e3 => cases e3 with
              | some e => exact ⟨o1, rfl, hs⟩
              | none =>
                obtain ⟨o2, h2, hs2⟩ := ih s3 o1 hs.nonneg
                refine ⟨o2, ?_, hs.trans hs2⟩
                simp only [h2, opsInto]
                simp only [hs.writes]

/-- The whole text of a config. -/
def fullText (isPrint : Char → Bool) (o : BuildOptions) (c : Config) : Str := (if o.header then header else []) ++ bodyText isPrint o c.parsed

/-- C46: a StringsCreator then holds one file per config, in order, with its text and a line feed. -/
theorem C46_strings (isPrint : Char → Bool) (files : List FileString) (configs : List Config) (o : BuildOptions) (h : 0 ≤ o.indent) :
    ∃ o', BuildInto isPrint stringsCreator files o configs =
      some (none, files ++ configs.map (fun c => { name := c.file, w := fullText isPrint o c ++ ['\n'] }), o') := by
  obtain ⟨o', h1, -⟩ := C46_into isPrint stringsCreator files configs o h
  refine ⟨o', ?_⟩
  rw [h1]
  suffices hr : ∀ files, runOps stringsCreator (opsInto isPrint o configs) files =
      (none, files ++ configs.map (fun c => { name := c.file, w := fullText isPrint o c ++ ['\n'] })) by rw [hr]
  clear h1
  induction configs with
  | nil => intro files; simp [opsInto, runOps]
  | cons cfg configs ih =>
    intro files
    simp only [opsInto, List.flatMap_cons, List.cons_append, List.append_assoc] at ih ⊢
    by_cases hh : o.header = true
    · simp [runOps, Op.run, stringsCreator, writesOf, hh] at ih ⊢
      rw [ih]; simp [fullText, hh]
    · simp [runOps, Op.run, stringsCreator, writesOf, hh] at ih ⊢
      rw [ih]; simp [fullText, hh]

example : (BuildInto (fun _ => true) stringsCreator [] {} [⟨c!"f", [], [], [dir c!"a" 1 []]⟩, ⟨c!"g", [], [], []⟩]).map (fun r => (r.1, r.2.1)) =
    some (none, [⟨c!"f", c!"a;\n"⟩, ⟨c!"g", c!"\n"⟩]) := by decide +kernel

/-! ## C47 -/

/-- Operations on the file system. -/
inductive FsOp where
  | mkdir (dir : Str)
  | create (path : Str)
  | write (path text : Str)
  | close (path : Str)

def FsOp.run {σ : Type} (os : OS σ) (s : σ) : FsOp → σ × Option GoErr
  | .mkdir dir => os.mkdirAll s dir
  | .create path => os.create s path
  | .write path text => os.write s path text
  | .close path => os.close s path

/-- Operations one after the other, up to the first that fails. -/
def runFs {σ : Type} (os : OS σ) : List FsOp → σ → Option GoErr × σ
  | [], s => (none, s)
  | op :: ops, s =>
    match op.run os s with
    | (s, some e) => (some e, s)
    | (s, none) => runFs os ops s

/-- `t` is `s` without the white space at its end. -/
def Trimmed (s t : Str) : Prop := (∃ w, s = t ++ w ∧ ∀ c ∈ w, isSpaceRune c = true) ∧ ∀ c, t.getLast? = some c → isSpaceRune c = false

theorem trimRight_trimmed (s : Str) : Trimmed s (trimRightSpace s) := by
  unfold Trimmed trimRightSpace
  refine ⟨⟨(s.reverse.takeWhile isSpaceRune).reverse, ?_, ?_⟩, ?_⟩
  · rw [← List.reverse_append, List.takeWhile_append_dropWhile, List.reverse_reverse]
  · intro c hc
    have := List.all_takeWhile (p := isSpaceRune) (l := s.reverse)
    rw [List.all_eq_true] at this
    exact this c (List.mem_reverse.mp hc)
  · intro c hc
    rw [List.getLast?_reverse] at hc
    cases hd : s.reverse.dropWhile isSpaceRune with
    | nil => rw [hd] at hc; cases hc
    | cons x xs =>
      rw [hd] at hc
      cases hc
      have := List.head_dropWhile_not (l := s.reverse) isSpaceRune (by rw [hd]; simp)
      simpa [hd] using this

/-- The operations of BuildFiles on one config: directory, file, its text without trailing white space and with one line feed, close. -/
def FsOpsOf {σ : Type} (isPrint : Char → Bool) (os : OS σ) (dir : Str) (o : BuildOptions) (c : Config) (ops : List FsOp) : Prop :=
  ∃ path text, path = (if os.isAbs c.file = true then c.file else os.join dir c.file) ∧ Trimmed (fullText isPrint o c) text ∧
    ops = [.mkdir (os.dir path), .create path, .write path (text ++ ['\n']), .close path]

theorem buildFiles_loop {σ : Type} (isPrint : Char → Bool) (os : OS σ) (dir : Str) (s : σ) (configs : List Config) (o : BuildOptions) (h : 0 ≤ o.indent) :
    ∃ ops, List.Forall₂ (FsOpsOf isPrint os dir o) configs ops ∧ buildFilesLoop isPrint os dir s o configs = some (runFs os ops.flatten s) := by
  refine ⟨configs.map fun c => [.mkdir (os.dir (if os.isAbs c.file = true then c.file else os.join dir c.file)),
    .create (if os.isAbs c.file = true then c.file else os.join dir c.file),
    .write (if os.isAbs c.file = true then c.file else os.join dir c.file) (trimRightSpace (fullText isPrint o c) ++ ['\n']),
    .close (if os.isAbs c.file = true then c.file else os.join dir c.file)], ?_, ?_⟩
  · induction configs with
    | nil => exact .nil
    | cons c configs ih => exact .cons ⟨_, _, rfl, trimRight_trimmed _, rfl⟩ ih
  · induction configs generalizing s o with
    | nil => rfl
    | cons c configs ih =>
      unfold buildFilesLoop
      have hp : (if (!os.isAbs c.file) = true then os.join dir c.file else c.file) = (if os.isAbs c.file = true then c.file else os.join dir c.file) := by
        cases os.isAbs c.file <;> rfl
      simp only [hp, List.map_cons, List.flatten_cons, List.cons_append, List.nil_append]
      generalize hpath : (if os.isAbs c.file = true then c.file else os.join dir c.file) = path
      rw [runFs, FsOp.run]
      cases os.mkdirAll s (os.dir path) with
      | mk s1 e1 => cases e1 with
        | some e => rfl
        | none =>
          simp only
          obtain ⟨o1, hb, hs⟩ := C46_build isPrint ⟨fun s _ => (s, none), bufferWriter.write, fun s => (s, none)⟩ [] c o h
          have hw : runOps ⟨fun s _ => (s, none), bufferWriter.write, fun s => (s, none)⟩ (writesOf isPrint o c) [] = (none, fullText isPrint o c) := by
            unfold writesOf fullText
            cases o.header <;> simp [runOps, Op.run, bufferWriter]
          rw [hw] at hb
          have hb' : Build isPrint bufferWriter [] c o = some (none, fullText isPrint o c, o1) := hb
          rw [hb']
          simp only
          rw [runFs, FsOp.run]
          cases os.create s1 path with
          | mk s2 e2 => cases e2 with
            | some e => rfl
            | none =>
              simp only
              rw [runFs, FsOp.run]
              cases os.write s2 path (trimRightSpace (fullText isPrint o c) ++ ['\n']) with
              | mk s3 e3 => cases e3 with
                | some e => rfl
                | none =>
                  simp only
                  rw [runFs, FsOp.run]
                  cases os.close s3 path with
                  | mk s4 e4 => cases e4 with
                    | some e => rfl
                    | none =>
                      simp only
                      rw [ih s4 o1 hs.nonneg]
                      have : ∀ c, fullText isPrint o1 c = fullText isPrint o c := by
                        intro c; unfold fullText; rw [hs.header, hs.body]
                      simp only [this]

theorem buildFiles_applied {σ : Type} (isPrint : Char → Bool) (os : OS σ) (s : σ) (payload : Payload) (dir : Str) (o : BuildOptions) (h : 0 ≤ o.indent)
    (ho : o.extBuilders = none) :
    ∃ ops, List.Forall₂ (FsOpsOf isPrint os dir o) payload.config ops ∧
      buildFilesLoop isPrint os dir s (applyBuilders o) payload.config = some (runFs os ops.flatten s) := by
  have hs : SameText (applyBuilders o) o := by
    obtain ⟨h1, h2, h3, h4⟩ := applyBuilders_keeps o
    refine ⟨by unfold indentOf; rw [h1], h, h2, h3, ?_⟩
    by_cases hb : o.builders = []
    · unfold applyBuilders; rw [hb]; rfl
    · have hsome := ext_some o.builders hb o
      have e1 : (buildSetup (applyBuilders o)).ext = (applyBuilders o).ext := by
        have hn : ¬ (applyBuilders o).extBuilders.isNone = true := by
          show ¬ (o.builders.foldl (fun o rb => rb.apply o) o).extBuilders.isNone = true
          cases hx : (o.builders.foldl (fun o rb => rb.apply o) o).extBuilders <;> simp_all
        unfold buildSetup
        by_cases hi : (applyBuilders o).indent = 0
        · simp [hi, hn]; rfl
        · simp [hi, hn]
      rw [e1]
      funext name
      rw [applyBuilders_ext, C48_last o ho]; simp [BuildOptions.ext, ho]
  obtain ⟨ops, h1, h2⟩ := buildFiles_loop isPrint os dir s payload.config (applyBuilders o) (by rw [(applyBuilders_keeps o).1]; exact h)
  refine ⟨ops, h1.imp fun c l hl => ?_, ?_⟩
  · obtain ⟨path, text, p1, p2, p3⟩ := hl
    refine ⟨path, text, p1, ?_, p3⟩
    have : fullText isPrint (applyBuilders o) c = fullText isPrint o c := by unfold fullText; rw [hs.header, hs.body]
    rw [← this]; exact p2
  · exact h2

/-- C47: BuildFiles does the operations of every config, in order, up to the first that fails. -/
theorem C47 {σ : Type} (isPrint : Char → Bool) (os : OS σ) (s : σ) (payload : Payload) (dir : Str) (o : BuildOptions) (h : 0 ≤ o.indent)
    (ho : o.extBuilders = none) (hd : dir ≠ []) :
    ∃ ops, List.Forall₂ (FsOpsOf isPrint os dir o) payload.config ops ∧ BuildFiles isPrint os s payload dir o = some (runFs os ops.flatten s) := by
  unfold BuildFiles
  rw [if_neg (by simpa using hd)]
  exact buildFiles_applied isPrint os s payload dir o h ho

/-- C47: without a directory the working directory is used; if it cannot be found nothing is done. -/
theorem C47_cwd {σ : Type} (isPrint : Char → Bool) (os : OS σ) (s : σ) (payload : Payload) (o : BuildOptions) (h : 0 ≤ o.indent)
    (ho : o.extBuilders = none) :
    (∃ e, (os.getwd s).2 = .error e ∧ BuildFiles isPrint os s payload [] o = some (some e, (os.getwd s).1)) ∨
    ∃ dir ops, (os.getwd s).2 = .ok dir ∧ List.Forall₂ (FsOpsOf isPrint os dir o) payload.config ops ∧
      BuildFiles isPrint os s payload [] o = some (runFs os ops.flatten (os.getwd s).1) := by
  unfold BuildFiles
  simp only [show (([] : Str) == []) = true from rfl, if_true]
  cases hg : os.getwd s with
  | mk s1 r =>
    cases r with
    | error e => exact Or.inl ⟨e, rfl, rfl⟩
    | ok dir =>
      obtain ⟨ops, h1, h2⟩ := buildFiles_applied isPrint os s1 payload dir o h ho
      exact Or.inr ⟨dir, ops, rfl, h1, h2⟩

/-- A file system that records the files written and fails to create `/d/bad`. -/
def exOS : OS (List (Str × Str)) where
  getwd := fun s => (s, .ok c!"/w")
  mkdirAll := fun s _ => (s, none)
  create := fun s p => if p = c!"/d/bad" then (s, some (.other c!"no")) else (s ++ [(p, [])], none)
  write := fun s p t => (s.map fun f => if f.1 = p then (p, f.2 ++ t) else f, none)
  close := fun s _ => (s, none)
  isAbs := fun f => hasPrefix f c!"/"
  join := fun d f => d ++ c!"/" ++ f
  dir := fun _ => c!"/"

example : BuildFiles (fun _ => true) exOS [] { config := [⟨c!"f", [], [], [dir c!"a" 1 [], ⟨c!"#", 2, [], [], none, none, some c!"x  ", false⟩]⟩,
      ⟨c!"bad", [], [], []⟩, ⟨c!"g", [], [], []⟩] } c!"/d" {} =
    some (some (.other c!"no"), [(c!"/d/f", c!"a;\n#x\n")]) := by decide +kernel

end Verif
