import Verif.Model.BuildPanic
import Verif.Spec.Panics
import Verif.Props.Build
import Verif.Props.Handles
/-!
# C92: when Build panics, and what is left then
-/
namespace Verif
open Spec

/-- The margin: a panic exactly at lines that are too deep. -/
theorem margin_eq (o : BuildOptions) (h : o.indent ≠ 0) (l : Line) :
    margin o l.depth = if TooDeep o.indent o.tabs l then none else some (marginOf o l.depth) := by
  rcases Int.lt_or_gt_of_ne h with hn | hp
  · obtain ⟨d, t⟩ := l
    unfold margin marginOf TooDeep
    have h1 : (d : Int) * o.indent < maxIndent := by
      have := Int.mul_nonpos_of_nonneg_of_nonpos (Int.natCast_nonneg d) (Int.le_of_lt hn)
      unfold maxIndent
      omega
    simp only [hn, h1, true_and, if_true]
    cases ht : o.tabs with
    | true =>
      simp only [if_true]
      by_cases hd : 100 < d
      · rw [if_pos hd, if_neg (by unfold maxIndent; omega)]
      · rw [if_neg hd, if_pos (by unfold maxIndent; omega)]
    | false =>
      simp only [Bool.false_eq_true, if_false]
      by_cases hd : 0 < d
      · rw [if_pos hd, if_neg]
        have := Int.mul_neg_of_pos_of_neg (show (0 : Int) < d by omega) hn
        omega
      · have : d = 0 := by omega
        subst this
        simp
  · have : ¬ TooDeep o.indent o.tabs l := fun ht => by have := ht.1; omega
    rw [C45_margin o hp, if_neg this]
    rfl

/-- All lines can be written. -/
def fits (o : BuildOptions) (ls : List Line) : Bool := ls.all fun l => !decide (TooDeep o.indent o.tabs l)

theorem fits_append (o : BuildOptions) (a b : List Line) : fits o (a ++ b) = (fits o a && fits o b) := List.all_append

theorem fits_tail (quote : Str → Str) (ext : Str → Option (Directive → Str)) (o : BuildOptions) (depth : Nat) (tail : Str) (d : Directive) :
    fits o (layoutDir quote ext depth tail d) = fits o (layoutDir quote ext depth [] d) := by
  obtain ⟨dd, dl, dargs, df, dincl, dblock, dcomm, dmap⟩ := d
  unfold layoutDir
  cases ext (quote dd) with
  | some b => rfl
  | none =>
    simp only
    cases (if dd = c!"#" then dcomm else none) with
    | some text => rfl
    | none =>
      simp only
      cases dblock with
      | none => rfl
      | some ds => simp [layoutBlock, fits, TooDeep]

theorem fits_one (o : BuildOptions) (depth : Nat) (t : Str) : fits o [⟨depth, t⟩] = !decide (TooDeep o.indent o.tabs ⟨depth, t⟩) := by simp [fits]

theorem tooDeep_text (o : BuildOptions) (depth : Nat) (t u : Str) : TooDeep o.indent o.tabs ⟨depth, t⟩ ↔ TooDeep o.indent o.tabs ⟨depth, u⟩ := Iff.rfl

mutual
theorem buildStmt_fits (isPrint : Char → Bool) (o : BuildOptions) (h : o.indent ≠ 0) (depth : Nat) : (d : Directive) →
    ∃ s, buildStmt isPrint o depth d = (if fits o (layoutDir (Enquote isPrint) o.ext depth [] d) then some (s, (o.ext (Enquote isPrint d.directive)).isNone) else none) ∧
      moreLines o (layoutDir (Enquote isPrint) o.ext depth [] d) = '\n' :: s
  | ⟨dd, dl, dargs, df, dincl, dblock, dcomm, dmap⟩ => by
    unfold buildStmt layoutDir
    have hm := margin_eq o h ⟨depth, []⟩
    dsimp only at hm
    by_cases ht : TooDeep o.indent o.tabs ⟨depth, []⟩
    · have this : ∀ t, TooDeep o.indent o.tabs ⟨depth, t⟩ := fun _ => ht
      rw [hm, if_pos ht]
      simp only [bind, Option.bind]
      cases o.ext (Enquote isPrint dd) with
      | some b => exact ⟨marginOf o depth ++ b ⟨dd, dl, dargs, df, dincl, dblock, dcomm, dmap⟩, by simp [fits, this], by simp [moreLines, render_eq]⟩
      | none =>
        dsimp only
        cases (if dd = c!"#" then dcomm else none) with
        | some text => exact ⟨marginOf o depth ++ c!"#" ++ text, by simp [fits, this], by simp [moreLines, render_eq]⟩
        | none =>
          obtain ⟨s, -, h2⟩ := buildOpt_fits isPrint o h depth dl (headText (Enquote isPrint) dd dargs) dblock
          refine ⟨_, ?_, h2⟩
          cases dblock with
          | none => simp [layoutBlock, fits, this]
          | some ds => simp [layoutBlock, fits, this]
    · have this : ∀ t, ¬ TooDeep o.indent o.tabs ⟨depth, t⟩ := fun _ => ht
      rw [hm, if_neg ht]
      simp only [bind, Option.bind]
      cases o.ext (Enquote isPrint dd) with
      | some b => exact ⟨marginOf o depth ++ b ⟨dd, dl, dargs, df, dincl, dblock, dcomm, dmap⟩, by simp [fits, this], by simp [moreLines, render_eq]⟩
      | none =>
        simp only [beq_iff_eq]
        cases (if dd = c!"#" then dcomm else none) with
        | some text => exact ⟨marginOf o depth ++ c!"#" ++ text, by simp [fits, this], by simp [moreLines, render_eq]⟩
        | none =>
          obtain ⟨s, h1, h2⟩ := buildOpt_fits isPrint o h depth dl (headText (Enquote isPrint) dd dargs) dblock
          refine ⟨marginOf o depth ++ Enquote isPrint dd ++ buildArgs isPrint (Enquote isPrint dd) dargs ++ s, ?_, ?_⟩
          · dsimp only
            rw [h1 ht]
            cases fits o (layoutBlock (Enquote isPrint) o.ext depth [] (headText (Enquote isPrint) dd dargs) dl dblock) <;> simp
          · dsimp only
            rw [h2, ← headText_eq]
            simp
theorem buildOpt_fits (isPrint : Char → Bool) (o : BuildOptions) (h : o.indent ≠ 0) (depth : Nat) (line : Int) (head : Str) :
    (b : Option (List Directive)) → ∃ s, (¬ TooDeep o.indent o.tabs ⟨depth, []⟩ → buildOpt isPrint o depth line b =
        (if fits o (layoutBlock (Enquote isPrint) o.ext depth [] head line b) then some s else none)) ∧
      moreLines o (layoutBlock (Enquote isPrint) o.ext depth [] head line b) = '\n' :: (marginOf o depth ++ (head ++ s))
  | none => ⟨c!";", fun ht => by
      have : ∀ t, ¬ TooDeep o.indent o.tabs ⟨depth, t⟩ := fun _ => ht
      simp [layoutBlock, fits, this, buildOpt], by simp [layoutBlock, moreLines, render_eq]⟩
  | some ds => by
    unfold buildOpt layoutBlock
    have h1 := buildBlock_fits isPrint o h true (depth + 1) line true (Or.inl rfl) ds
    have hm := margin_eq o h ⟨depth, []⟩
    dsimp only at hm
    refine ⟨c!" {" ++ ((layout (Enquote isPrint) o.ext (depth + 1) line ds).1 ++ moreLines o (layout (Enquote isPrint) o.ext (depth + 1) line ds).2) ++ c!"\n" ++ marginOf o depth ++ c!"}", fun ht => ?_, ?_⟩
    · rw [h1, hm, if_neg ht]
      have : ∀ t, ¬ TooDeep o.indent o.tabs ⟨depth, t⟩ := fun _ => ht
      have hf : ∀ t u ls, fits o (⟨depth, t⟩ :: ls ++ [⟨depth, u⟩]) = fits o ls := fun t u ls => by simp [fits, this]
      rw [hf]
      cases fits o (layout (Enquote isPrint) o.ext (depth + 1) line ds).2 <;> simp
    · simp [moreLines_cons, moreLines_append, render_eq]
      simp [moreLines]
theorem buildBlock_fits (isPrint : Char → Bool) (o : BuildOptions) (h : o.indent ≠ 0) (hasParent : Bool) (depth : Nat) (lastLine : Int) (first : Bool)
    (hf : hasParent = true ∨ first = false) : (ds : List Directive) →
    buildBlock isPrint o hasParent depth lastLine first ds = if fits o (layout (Enquote isPrint) o.ext depth lastLine ds).2 then
      some ((layout (Enquote isPrint) o.ext depth lastLine ds).1 ++ moreLines o (layout (Enquote isPrint) o.ext depth lastLine ds).2) else none
  | [] => rfl
  | d :: ds => by
    unfold buildBlock layout
    by_cases hc : CommentOn d lastLine
    · rw [if_pos ((sameLineComment_iff _ _).mpr hc), if_pos hc, buildBlock_fits isPrint o h hasParent depth lastLine false (Or.inr rfl) ds]
      dsimp only
      cases fits o (layout (Enquote isPrint) o.ext depth lastLine ds).2 <;> simp
    · rw [if_neg (by rw [sameLineComment_iff]; exact hc), if_neg hc]
      obtain ⟨s, h1, h2⟩ := buildStmt_fits isPrint o h depth d
      have hnl : (!first || hasParent) = true := by rcases hf with h | h <;> simp [h]
      have hcond : (if (o.ext (Enquote isPrint d.directive)).isNone = true then d.line else lastLine) =
          (if (o.ext (Enquote isPrint d.directive)).isSome = true then lastLine else d.line) := by
        cases o.ext (Enquote isPrint d.directive) <;> rfl
      simp only [h1, hnl, if_true]
      rw [fits_append, fits_tail _ _ o depth (layout (Enquote isPrint) o.ext depth (if (o.ext (Enquote isPrint d.directive)).isSome = true then lastLine else d.line) ds).1]
      cases hfd : fits o (layoutDir (Enquote isPrint) o.ext depth [] d) with
      | false => simp
      | true =>
        simp only [if_true, Bool.true_and, bind, Option.bind]
        rw [buildBlock_fits isPrint o h hasParent depth _ false (Or.inr rfl) ds, hcond, moreLines_append, layoutDir_tail, h2]
        cases fits o (layout (Enquote isPrint) o.ext depth (if (o.ext (Enquote isPrint d.directive)).isSome = true then lastLine else d.line) ds).2 <;> simp
end

theorem fileLines_fits (quote : Str → Str) (ext : Str → Option (Directive → Str)) (o : BuildOptions) (ds : List Directive) :
    fits o (fileLines quote ext ds) = fits o (layout quote ext 0 0 ds).2 := by
  unfold fileLines
  rw [fits_append]
  split
  · rfl
  · have : ∀ t, ¬ TooDeep o.indent o.tabs ⟨0, t⟩ := fun t ht => by
      have h2 := ht.2
      split at h2 <;> exact absurd h2 (by simp)
    simp [fits, this]

theorem layoutDir_ne (quote : Str → Str) (ext : Str → Option (Directive → Str)) (depth : Nat) (tail : Str) (d : Directive) : layoutDir quote ext depth tail d ≠ [] := by
  obtain ⟨dd, dl, dargs, df, dincl, dblock, dcomm, dmap⟩ := d
  unfold layoutDir
  cases ext (quote dd) with
  | some b => simp
  | none =>
    simp only
    cases (if dd = c!"#" then dcomm else none) with
    | some text => simp
    | none => cases dblock <;> simp [layoutBlock]

theorem moreLines_join (o : BuildOptions) {l : List Line} (h : l ≠ []) : moreLines o l = '\n' :: joinLines o.indent.toNat o.tabs l := by
  cases l with
  | nil => exact absurd rfl h
  | cons a as => simp [moreLines, joinLines]

/-- The text of a file, or a panic. -/
theorem buildBlock_file (isPrint : Char → Bool) (o : BuildOptions) (h : o.indent ≠ 0) (ds : List Directive) :
    buildBlock isPrint o false 0 0 true ds = if fits o (fileLines (Enquote isPrint) o.ext ds) then
      some (joinLines o.indent.toNat o.tabs (fileLines (Enquote isPrint) o.ext ds)) else none := by
  rw [fileLines_fits]
  cases ds with
  | nil => rfl
  | cons d ds =>
    unfold fileLines
    by_cases hc : CommentOn d 0
    · have hb : buildBlock isPrint o false 0 0 true (d :: ds) = buildBlock isPrint o true 0 0 true (d :: ds) := by
        unfold buildBlock
        rw [if_pos ((sameLineComment_iff _ _).mpr hc), if_pos ((sameLineComment_iff _ _).mpr hc),
          buildBlock_fits isPrint o h false 0 0 false (Or.inr rfl), buildBlock_fits isPrint o h true 0 0 false (Or.inr rfl)]
      rw [hb, buildBlock_fits isPrint o h true 0 0 true (Or.inl rfl)]
      have hne : (layout (Enquote isPrint) o.ext 0 0 (d :: ds)).1 ≠ [] := by
        unfold layout; rw [if_pos hc]; simp
      rw [if_neg hne]
      simp [joinLines, Line.render, moreLines]
    · unfold buildBlock
      rw [if_neg (by rw [sameLineComment_iff]; exact hc)]
      obtain ⟨s, h1, h2⟩ := buildStmt_fits isPrint o h 0 d
      simp only [h1]
      rw [layout, if_neg hc]
      have hcond : (if (o.ext (Enquote isPrint d.directive)).isNone = true then d.line else (0 : Int)) =
          (if (o.ext (Enquote isPrint d.directive)).isSome = true then 0 else d.line) := by
        cases o.ext (Enquote isPrint d.directive) <;> rfl
      simp only [if_true, List.nil_append]
      rw [fits_append, fits_tail _ _ o 0 (layout (Enquote isPrint) o.ext 0 (if (o.ext (Enquote isPrint d.directive)).isSome = true then 0 else d.line) ds).1]
      cases hfd : fits o (layoutDir (Enquote isPrint) o.ext 0 [] d) with
      | false => simp
      | true =>
        simp only [if_true, Bool.true_and, bind, Option.bind]
        rw [buildBlock_fits isPrint o h false 0 _ false (Or.inr rfl) ds, hcond]
        generalize hr : layout (Enquote isPrint) o.ext 0 (if (o.ext (Enquote isPrint d.directive)).isSome = true then 0 else d.line) ds = r
        have hj := moreLines_join o (l := layoutDir (Enquote isPrint) o.ext 0 r.1 d ++ r.2) (fun hn => layoutDir_ne _ _ _ _ _ (List.append_eq_nil_iff.mp hn).1)
        rw [moreLines_append, layoutDir_tail, h2] at hj
        simp only [List.cons_append, List.cons.injEq, true_and] at hj
        rw [← hj]
        cases fits o r.2 <;> simp

theorem tooDeep_setup (o : BuildOptions) (l : Line) : TooDeep (buildSetup o).indent (buildSetup o).tabs l ↔ TooDeep o.indent o.tabs l := by
  unfold TooDeep
  rw [(buildSetup_keeps o).1, (buildSetup_keeps o).2.1]
  have : (if o.indent = 0 then 4 else o.indent) < 0 ↔ o.indent < 0 := by split <;> omega
  rw [this]

/-- **C92**: the body of a config for any indent.  It is the lines of the layout, and Build panics exactly if one of them is too deep. -/
theorem C92_body (isPrint : Char → Bool) (o : BuildOptions) (ds : List Directive) :
    buildBody isPrint (buildSetup o) ds =
      if ∃ l ∈ fileLines (Enquote isPrint) (buildSetup o).ext ds, TooDeep o.indent o.tabs l then none else some (bodyText isPrint o ds) := by
  have hi : (buildSetup o).indent ≠ 0 := by rw [(buildSetup_keeps o).1]; split <;> omega
  have ht := tooDeep_setup o
  unfold buildBody
  rw [buildBlock_file isPrint _ hi]
  by_cases hf : ∃ l ∈ fileLines (Enquote isPrint) (buildSetup o).ext ds, TooDeep o.indent o.tabs l
  · have : fits (buildSetup o) (fileLines (Enquote isPrint) (buildSetup o).ext ds) = false := by
      obtain ⟨l, h1, h2⟩ := hf
      unfold fits
      rw [List.all_eq_false]
      exact ⟨l, h1, by simp [(ht l).mpr h2]⟩
    rw [if_pos hf, this]
    rfl
  · have : fits (buildSetup o) (fileLines (Enquote isPrint) (buildSetup o).ext ds) = true := by
      unfold fits
      rw [List.all_eq_true]
      intro l hl
      have : ¬ TooDeep (buildSetup o).indent (buildSetup o).tabs l := fun h => hf ⟨l, hl, (ht l).mp h⟩
      simp [this]
    rw [if_neg hf, this, buildSetup_indent, (buildSetup_keeps o).2.1]
    unfold bodyText dropFinalLF
    simp [bind, Option.bind]

/-- **C92**: `BuildP` has the results of `Build`. -/
theorem C92_build {σ : Type} (isPrint : Char → Bool) (w : Writer σ) (s : σ) (config : Config) (o : BuildOptions) :
    Build isPrint w s config o = (BuildP isPrint w s config o).1.map fun r => (r.1, (BuildP isPrint w s config o).2, r.2) := by
  unfold Build BuildP
  dsimp only
  generalize (if o.header = true then w.write s header else (s, none)) = r
  obtain ⟨s1, _ | e⟩ := r
  · dsimp only
    cases buildBody isPrint (buildSetup o) config.parsed <;> rfl
  · rfl

/-- A config that makes Build panic. -/
def Panics (isPrint : Char → Bool) (o : BuildOptions) (config : Config) : Prop :=
  ∃ l ∈ fileLines (Enquote isPrint) (buildSetup o).ext config.parsed, TooDeep o.indent o.tabs l

theorem panics_setup (isPrint : Char → Bool) (o : BuildOptions) (config : Config) : Panics isPrint (buildSetup o) config ↔ Panics isPrint o config := by
  unfold Panics
  rw [buildSetup_idem]
  simp only [tooDeep_setup]

/-- **C92**: Build panics exactly if a line is too deep and the header, if there is one, was written; then nothing else was written. -/
theorem C92_panic {σ : Type} (isPrint : Char → Bool) (w : Writer σ) (s s' : σ) (config : Config) (o : BuildOptions) :
    BuildP isPrint w s config o = (none, s') ↔ Panics isPrint o config ∧ (if o.header then w.write s header else (s, none)) = (s', none) := by
  unfold BuildP
  dsimp only
  generalize (if o.header = true then w.write s header else (s, none)) = r
  obtain ⟨s1, _ | e⟩ := r
  · dsimp only
    rw [C92_body]
    by_cases hp : Panics isPrint o config
    · have hp' := hp
      unfold Panics at hp'
      rw [if_pos hp']
      simp [hp]
    · have hp' := hp
      unfold Panics at hp'
      rw [if_neg hp']
      simp [hp]
  · simp

theorem BuildP_options {σ : Type} {isPrint : Char → Bool} {w : Writer σ} {s s' : σ} {config : Config} {o o' : BuildOptions}
    (h : BuildP isPrint w s config o = (some (none, o'), s')) : o' = buildSetup o := by
  unfold BuildP at h
  dsimp only at h
  generalize (if o.header = true then w.write s header else (s, none)) = r at h
  obtain ⟨s1, _ | e⟩ := r
  · dsimp only at h
    cases hb : buildBody isPrint (buildSetup o) config.parsed with
    | none => rw [hb] at h; cases h
    | some body =>
      rw [hb] at h
      simp only [Prod.mk.injEq, Option.some.injEq] at h
      exact h.1.2.symm
  · cases h

/-- **C92**: `BuildIntoP` has the results of `BuildInto`. -/
theorem C92_into {σ : Type} (isPrint : Char → Bool) (c : Creator σ) (s : σ) (o : BuildOptions) (configs : List Config) :
    BuildInto isPrint c s o configs = (BuildIntoP isPrint c s o configs).1.map fun r => (r.1, (BuildIntoP isPrint c s o configs).2, r.2) := by
  induction configs generalizing s o with
  | nil => rfl
  | cons config configs ih =>
    rw [BuildInto, BuildIntoP]
    generalize c.create s config.file = r
    obtain ⟨s1, _ | e⟩ := r
    · dsimp only
      rw [C92_build]
      generalize BuildP isPrint ⟨c.write⟩ s1 config o = r
      obtain ⟨_ | ⟨_ | e, o1⟩, s2⟩ := r
      · rfl
      · dsimp only [Option.map_some]
        generalize c.close s2 = r
        obtain ⟨s3, _ | e⟩ := r
        · exact ih s3 o1
        · rfl
      · rfl
    · rfl

theorem buildFilesLoopP_eq {σ : Type} (isPrint : Char → Bool) (os : OS σ) (dir : Str) (s : σ) (o : BuildOptions) (configs : List Config) :
    buildFilesLoop isPrint os dir s o configs = (buildFilesLoopP isPrint os dir s o configs).1.map fun r => (r, (buildFilesLoopP isPrint os dir s o configs).2) := by
  induction configs generalizing s o with
  | nil => rfl
  | cons config configs ih =>
    rw [buildFilesLoop, buildFilesLoopP]
    generalize (if (!os.isAbs config.file) = true then os.join dir config.file else config.file) = path
    generalize os.mkdirAll s (os.dir path) = r
    obtain ⟨s1, _ | e⟩ := r
    · dsimp only
      rw [C92_build]
      generalize BuildP isPrint bufferWriter [] config o = r
      obtain ⟨_ | ⟨_ | e, o1⟩, buf⟩ := r
      · rfl
      · dsimp only [Option.map_some]
        generalize os.create s1 path = r
        obtain ⟨s2, _ | e⟩ := r
        · dsimp only
          generalize os.write s2 path (trimRightSpace buf ++ ['\n']) = r
          obtain ⟨s3, _ | e⟩ := r
          · dsimp only
            generalize os.close s3 path = r
            obtain ⟨s4, _ | e⟩ := r
            · exact ih s4 o1
            · rfl
          · rfl
        · rfl
      · rfl
    · rfl

/-- **C92**: `BuildFilesP` has the results of `BuildFiles`. -/
theorem C92_files {σ : Type} (isPrint : Char → Bool) (os : OS σ) (s : σ) (payload : Payload) (dir : Str) (o : BuildOptions) :
    BuildFiles isPrint os s payload dir o = (BuildFilesP isPrint os s payload dir o).1.map fun r => (r, (BuildFilesP isPrint os s payload dir o).2) := by
  unfold BuildFiles BuildFilesP
  split
  · generalize os.getwd s = r
    obtain ⟨s1, e | cwd⟩ := r
    · rfl
    · exact buildFilesLoopP_eq ..
  · exact buildFilesLoopP_eq ..

theorem BuildP_noted {σ : Type} (isPrint : Char → Bool) (c : Creator σ) (s : σ) (x : List HEvent × Nat) (config : Config) (o : BuildOptions) :
    BuildP isPrint ⟨(notedCreator c).write⟩ (s, x) config o = ((BuildP isPrint ⟨c.write⟩ s config o).1, (BuildP isPrint ⟨c.write⟩ s config o).2, x) := by
  unfold BuildP
  dsimp only [notedCreator]
  by_cases hh : o.header = true
  · simp only [if_pos hh]
    rcases c.write s header with ⟨s1, _ | e⟩
    · dsimp only
      cases buildBody isPrint (buildSetup o) config.parsed <;> rfl
    · rfl
  · simp only [if_neg hh]
    cases buildBody isPrint (buildSetup o) config.parsed <;> rfl

theorem BuildIntoP_panic {σ : Type} (isPrint : Char → Bool) (c : Creator σ) (s : σ) (o : BuildOptions) (configs : List Config) (n : Nat)
    {s' : σ} {t : List HEvent} {n' : Nat} (h : BuildIntoP isPrint (notedCreator c) (s, writes n, n) o configs = (none, s', t, n')) :
    ∃ a config b s1 s2 o1, configs = a ++ config :: b ∧ Panics isPrint o config ∧ BuildInto isPrint c s o a = some (none, s1, o1) ∧
      c.create s1 config.file = (s2, none) ∧ (if o.header then c.write s2 header else (s2, none)) = (s', none) ∧
      t = writes (n + a.length) ++ [.open_ (n + a.length)] := by
  induction configs generalizing s o n with
  | nil => cases h
  | cons config configs ih =>
    rw [BuildIntoP] at h
    have e0 : (notedCreator c).create (s, writes n, n) config.file =
      (((c.create s config.file).1, writes n ++ [if (c.create s config.file).2.isSome then .failed n else .open_ n], n + 1), (c.create s config.file).2) := rfl
    rw [e0] at h
    rcases hc : c.create s config.file with ⟨s2, _ | e⟩
    · rw [hc] at h
      dsimp only at h
      rw [BuildP_noted] at h
      rcases hb : BuildP isPrint ⟨c.write⟩ s2 config o with ⟨_ | ⟨_ | e, o1⟩, s3⟩
      · rw [hb] at h
        cases h
        obtain ⟨h1, h2⟩ := (C92_panic ..).mp hb
        exact ⟨[], config, configs, s, s2, o, rfl, h1, rfl, hc, h2, by simp⟩
      · rw [hb] at h
        dsimp only at h
        have e2 : ∀ x, (notedCreator c).close (s3, x, n + 1) = (((c.close s3).1, x ++ [.close n], n + 1), (c.close s3).2) := fun _ => rfl
        rw [e2] at h
        rcases hcl : c.close s3 with ⟨s4, _ | e⟩
        · rw [hcl] at h
          dsimp only at h
          have e1 : writes n ++ [HEvent.open_ n] ++ [HEvent.close n] = writes (n + 1) := by simp [writes]
          simp only [Option.isSome_none, Bool.false_eq_true, if_false, e1] at h
          have ho := BuildP_options hb
          obtain ⟨a, config', b, s5, s6, o2, h1, h2, h3, h4, h5, h6⟩ := ih s4 o1 (n + 1) h
          refine ⟨config :: a, config', b, s5, s6, o2, by rw [h1]; rfl, ?_, ?_, h4, ?_, ?_⟩
          · rw [ho, panics_setup] at h2
            exact h2
          · rw [BuildInto, hc]
            dsimp only
            rw [C92_build, hb]
            dsimp only [Option.map_some]
            rw [hcl]
            exact h3
          · rw [ho, (buildSetup_keeps o).2.2.1] at h5
            exact h5
          · rw [h6, List.length_cons, show n + 1 + a.length = n + (a.length + 1) by omega]
        · rw [hcl] at h
          cases h
      · rw [hb] at h
        cases h
    · rw [hc] at h
      cases h

/-- **C92**, `BuildInto`: at a panic the configs before were written completely and their files closed; the file of the config that panics was created and is left open,
with the header at most.  (So C69 fails of `BuildInto` at every panic.) -/
theorem C92_into_panic {σ : Type} {isPrint : Char → Bool} {c : Creator σ} {s s' : σ} {o : BuildOptions} {configs : List Config} {t : List HEvent} {n : Nat}
    (h : BuildIntoP isPrint (notedCreator c) (s, [], 0) o configs = (none, s', t, n)) :
    ∃ a config b s1 s2 o1, configs = a ++ config :: b ∧ Panics isPrint o config ∧ BuildInto isPrint c s o a = some (none, s1, o1) ∧
      c.create s1 config.file = (s2, none) ∧ (if o.header then c.write s2 header else (s2, none)) = (s', none) ∧
      calls t = List.range (a.length + 1) ∧ held t = [a.length] := by
  obtain ⟨a, config, b, s1, s2, o1, h1, h2, h3, h4, h5, h6⟩ := BuildIntoP_panic isPrint c s o configs 0 h
  refine ⟨a, config, b, s1, s2, o1, h1, h2, h3, h4, h5, ?_, ?_⟩
  · rw [h6, calls_append, calls_writes, Nat.zero_add, List.range_succ]; rfl
  · rw [h6, held_writes, Nat.zero_add]; rfl

theorem buildFilesLoopP_panic {σ : Type} (isPrint : Char → Bool) (os : OS σ) (dir : Str) (s : σ) (o : BuildOptions) (configs : List Config) (n : Nat)
    {s' : σ} {t : List HEvent} {n' : Nat} (h : buildFilesLoopP isPrint (notedOS os) dir (s, writes n, n) o configs = (none, s', t, n')) :
    ∃ a config b s1, configs = a ++ config :: b ∧ Panics isPrint o config ∧ buildFilesLoop isPrint os dir s o a = some (none, s1) ∧
      os.mkdirAll s1 (os.dir (if os.isAbs config.file then config.file else os.join dir config.file)) = (s', none) ∧ t = writes (n + a.length) := by
  induction configs generalizing s o n with
  | nil => cases h
  | cons config configs ih =>
    rw [buildFilesLoopP] at h
    have e0 : ∀ p s x, (notedOS os).mkdirAll (s, x) p = (((os.mkdirAll s p).1, x), (os.mkdirAll s p).2) := fun _ _ _ => rfl
    have e1 : ∀ p s, (notedOS os).create (s, writes n, n) p =
      (((os.create s p).1, writes n ++ [if (os.create s p).2.isSome then .failed n else .open_ n], n + 1), (os.create s p).2) := fun _ _ => rfl
    have e2 : ∀ p s x b, (notedOS os).write (s, x) p b = (((os.write s p b).1, x), (os.write s p b).2) := fun _ _ _ _ => rfl
    have e3 : ∀ p s x, (notedOS os).close (s, x, n + 1) p = (((os.close s p).1, x ++ [.close n], n + 1), (os.close s p).2) := fun _ _ _ => rfl
    have e4 : (notedOS os).isAbs = os.isAbs := rfl
    have e5 : (notedOS os).join = os.join := rfl
    have e6 : (notedOS os).dir = os.dir := rfl
    rw [e4, e5] at h
    have hpath : (if os.isAbs config.file = true then config.file else os.join dir config.file) =
      (if (!os.isAbs config.file) = true then os.join dir config.file else config.file) := by cases os.isAbs config.file <;> rfl
    rcases hmk : os.mkdirAll s (os.dir (if (!os.isAbs config.file) = true then os.join dir config.file else config.file)) with ⟨s1, _ | e⟩
    · rw [e0, e6, hmk] at h
      dsimp only at h
      rcases hb : BuildP isPrint bufferWriter [] config o with ⟨_ | ⟨_ | e, o1⟩, buf⟩
      · rw [hb] at h
        cases h
        exact ⟨[], config, configs, s, rfl, ((C92_panic ..).mp hb).1, rfl, by rw [hpath]; exact hmk, by simp⟩
      · rw [hb] at h
        dsimp only at h
        have hloop : ∀ a, buildFilesLoop isPrint os dir s o (config :: a) = (match os.create s1 (if (!os.isAbs config.file) = true then os.join dir config.file else config.file) with
            | (s, some e) => some (some e, s)
            | (s, none) =>
              match os.write s (if (!os.isAbs config.file) = true then os.join dir config.file else config.file) (trimRightSpace buf ++ ['\n']) with
              | (s, some e) => some (some e, s)
              | (s, none) =>
                match os.close s (if (!os.isAbs config.file) = true then os.join dir config.file else config.file) with
                | (s, some e) => some (some e, s)
                | (s, none) => buildFilesLoop isPrint os dir s o1 a) := by
          intro a
          rw [buildFilesLoop, hmk]
          dsimp only
          rw [C92_build, hb]
          rfl
        generalize (if (!os.isAbs config.file) = true then os.join dir config.file else config.file) = path at h hloop
        rw [e1] at h
        rcases hcr : os.create s1 path with ⟨s2, _ | e⟩
        · rw [hcr] at h
          dsimp only at h
          rw [e2] at h
          rcases hw : os.write s2 path (trimRightSpace buf ++ ['\n']) with ⟨s3, _ | e⟩
          · rw [hw] at h
            dsimp only at h
            rw [e3] at h
            rcases hcl : os.close s3 path with ⟨s4, _ | e⟩
            · rw [hcl] at h
              dsimp only at h
              have e7 : writes n ++ [HEvent.open_ n] ++ [HEvent.close n] = writes (n + 1) := by simp [writes]
              simp only [Option.isSome_none, Bool.false_eq_true, if_false, e7] at h
              have ho := BuildP_options hb
              obtain ⟨a, config', b, s5, h1, h2, h3, h4, h5⟩ := ih s4 o1 (n + 1) h
              refine ⟨config :: a, config', b, s5, by rw [h1]; rfl, ?_, ?_, h4, ?_⟩
              · rw [ho, panics_setup] at h2
                exact h2
              · rw [hloop, hcr]
                dsimp only
                rw [hw]
                dsimp only
                rw [hcl]
                exact h3
              · rw [h5, List.length_cons, show n + 1 + a.length = n + (a.length + 1) by omega]
            · rw [hcl] at h; cases h
          · rw [hw] at h; cases h
        · rw [hcr] at h; cases h
      · rw [hb] at h
        cases h
    · rw [e0, e6, hmk] at h
      cases h

/-- **C92**, `BuildFiles`: at a panic the files of the configs before were written completely and closed, no file is open, and of the config that panics there is a directory at most:
a file that existed before is untouched. -/
theorem C92_files_panic {σ : Type} {isPrint : Char → Bool} {os : OS σ} {s s' : σ} {payload : Payload} {dir : Str} {o : BuildOptions} {t : List HEvent} {n : Nat}
    (h : BuildFilesP isPrint (notedOS os) (s, [], 0) payload dir o = (none, s', t, n)) :
    ∃ a config b s1 d, payload.config = a ++ config :: b ∧ Panics isPrint (applyBuilders o) config ∧
      BuildFiles isPrint os s { payload with config := a } dir o = some (none, s1) ∧ os.mkdirAll s1 d = (s', none) ∧
      calls t = List.range a.length ∧ Nested t ∧ held t = [] := by
  have key : ∀ (s : σ) (dir : Str), buildFilesLoopP isPrint (notedOS os) dir (s, [], 0) (applyBuilders o) payload.config = (none, s', t, n) →
      ∃ a config b s1 d, payload.config = a ++ config :: b ∧ Panics isPrint (applyBuilders o) config ∧
        buildFilesLoop isPrint os dir s (applyBuilders o) a = some (none, s1) ∧ os.mkdirAll s1 d = (s', none) ∧
        calls t = List.range a.length ∧ Nested t ∧ held t = [] := by
    intro s dir h
    obtain ⟨a, config, b, s1, h1, h2, h3, h4, h5⟩ := buildFilesLoopP_panic isPrint os dir s (applyBuilders o) payload.config 0 h
    rw [Nat.zero_add] at h5
    exact ⟨a, config, b, s1, _, h1, h2, h3, h4, by rw [h5, calls_writes], by rw [h5]; exact nested_writes _, by rw [h5]; exact held_nested (nested_writes _)⟩
  unfold BuildFilesP at h
  unfold BuildFiles
  by_cases hd : (dir == []) = true
  · rw [if_pos hd] at h
    simp only [if_pos hd]
    have e1 : (notedOS os).getwd (s, [], 0) = (((os.getwd s).1, [], 0), (os.getwd s).2) := rfl
    rw [e1] at h
    rcases hg : os.getwd s with ⟨s1, e' | cwd⟩
    · rw [hg] at h; cases h
    · rw [hg] at h
      exact key s1 cwd h
  · rw [if_neg hd] at h
    simp only [if_neg hd]
    exact key s dir h

/-! ## Examples -/

/-- A negative indent: a block can be written if it is empty, or in tabs. -/
example : ¬ Panics (fun _ => true) { indent := -1 } { file := [], status := [], parsed := [blk c!"a" 1 [] [], dir c!"b" 2 []] } ∧
    Panics (fun _ => true) { indent := -1 } { file := [], status := [], parsed := [blk c!"a" 1 [] [dir c!"b" 2 []]] } ∧
    ¬ Panics (fun _ => true) { indent := -1, tabs := true } { file := [], status := [], parsed := [blk c!"a" 1 [] [dir c!"b" 2 []]] } := by
  unfold Panics; decide +kernel

example : bodyText (fun _ => true) { indent := -1, tabs := true } [blk c!"a" 1 [] [dir c!"b" 2 []]] = c!"a {\n\tb;\n}" := by decide +kernel

/-- The second of two configs panics: the first is complete, the second created and open. -/
example : BuildIntoP (fun _ => true) (notedCreator stringsCreator) ([], [], 0) { indent := -1, header := false }
    [{ file := c!"x", status := [], parsed := [dir c!"b" 2 []] }, { file := c!"y", status := [], parsed := [blk c!"a" 1 [] [dir c!"b" 2 []]] }] =
    (none, [⟨c!"x", c!"b;\n"⟩, ⟨c!"y", []⟩], [.open_ 0, .close 0, .open_ 1], 2) := rfl

/-- The same for BuildFiles: nothing is open. -/
example : BuildFilesP (fun _ => true) (notedOS { fullDisk with write := fun s _ _ => (s, none) }) ((), [], 0)
    (okPayload [(c!"x", [dir c!"b" 2 []]), (c!"y", [blk c!"a" 1 [] [dir c!"b" 2 []]])]) [] { indent := -1 } = (none, (), [.open_ 0, .close 0], 1) := by decide +kernel

end Verif
