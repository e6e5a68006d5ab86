import Verif.Proofs.Works
import Verif.Props.Project
/-!
# C81: what becomes of any configuration of several files

`Work` (Spec/Works) says which files are read, in which order and contexts, what is kept of each, on which lines there are errors, and how it ends.
-/
namespace Verif
open Spec

/-- What is assumed: a file system that does not change, whose errors for patterns have no line; nothing combined, errors collected. -/
structure Collecting (env : Env) (o : ParseOptions) (text : Str → Option FileData) (matching : Str → Option (List Str)) : Prop where
  perm : ∀ l, (env.mapOrder l).Perm l
  disk : ReadOnly env text matching
  patterns : ∀ n p e, env.glob n p = .error e → e.line? = none
  combine : o.combineConfigs = false
  onward : o.stopParsingOnError = false

/-- The files that include directives stand for. -/
def worksNames (env : Env) (o : ParseOptions) (text : Str → Option FileData) (matching : Str → Option (List Str)) (filename : Str) : List Str → Option (List Str) :=
  namesOf (diskLook env o (env.dir filename) text matching)

/-- What becomes of the file and those it includes: the tokens are those of the lexer, include directives stand for files of the file system. -/
def Works (env : Env) (o : ParseOptions) (text : Str → Option FileData) (matching : Str → Option (List Str)) (filename : Str) (fs : List ReadFile) (e : End) : Prop :=
  Work (fun f => (text f).map (fileToks o)) (diskLook env o (env.dir filename) text matching) (rulesOf o (worksNames env o text matching filename))
    [(filename, [])] 0 fs e

section
variable {env : Env} {o : ParseOptions} {text : Str → Option FileData} {matching : Str → Option (List Str)} {filename : Str} {fs : List ReadFile} {fuel : Nat}

theorem works_done (ho : Collecting env o text matching) (hf : fs.length < fuel) (hfresh : ∀ f ∈ fs, Fresh f.ctx.length)
    (h : Works env o text matching filename fs .done) :
    ∃ p, (Cyclic (worksNames env o text matching filename) fs → Parse env fuel filename o = .err cycleError) ∧
      (¬ Cyclic (worksNames env o text matching filename) fs → Parse env fuel filename o = .ok p) ∧
      p.status = (if fs.flatMap (·.lines) = [] then c!"ok" else c!"failed") ∧
      p.config.map (fun c => (c.file, c.status, c.parsed, c.errors.map (·.line))) =
        fs.map (fun f => (f.name, (if f.lines = [] then c!"ok" else c!"failed"), f.tree (worksNames env o text matching filename) (fs.map (·.name)), f.lines)) ∧
      p.errors.map (fun e => (e.file, e.line)) = fs.flatMap (fun f => f.lines.map (f.name, ·)) := by
  obtain ⟨cs, ps', h1, h2, h3, h4, h5, h6⟩ := h.run ho.disk ho.combine ho.onward (ho.disk.looks ho.patterns ho.onward (env.dir filename)) [] (initPS filename)
    (fun _ => 0) rfl (init_table filename) (init_links filename) hfresh (fun f c ls h => by cases h)
  obtain ⟨G, hG⟩ := h1.graph (init_table filename) ⟨_, init_graph filename⟩
  obtain ⟨hk1, hk2⟩ := h1.included_eq
  have hnames : cs.map (·.file) = fs.map (·.name) := by
    have := congrArg (List.map fun x : Str × Str × List Directive × List (Option Int) => x.1) (h2 _ (List.prefix_refl _))
    simpa [configView, readView, Function.comp_def] using this
  have hpre : (collect [(filename, [])] (fs.flatMap (·.refs (worksNames env o text matching filename)))).map (·.1) = fs.map (·.name) := by
    rw [← hnames]
    refine h5.trans ?_
    rw [hk1, indexed_keys]
  have hlen : cs.length = fs.length := by simpa using congrArg List.length hnames
  have hcyc := (isAcyclic_spec ho.perm hG (by rw [hk1, indexed_keys]; exact hk2)).1
  have hrel : (∃ a, Relation.TransGen ps'.Edge a a) ↔ Cyclic (worksNames env o text matching filename) fs := by
    have : ps'.Edge = fun a b => ∃ f ∈ fs, f.name = a ∧ b ∈ (f.refs (worksNames env o text matching filename)).map (·.1) := by
      funext u v
      rw [eq_iff_iff, h6]
      exact or_iff_right (fun h => by cases h)
    rw [this]; rfl
  rw [hrel] at hcyc
  refine ⟨rawPayload ps' cs, ?_, ?_, h4, h2 _ (by rw [← hpre]; exact List.prefix_refl _), by rw [show (rawPayload ps' cs).errors = ps'.payErrors from rfl, h3]; rfl⟩
  all_goals
    intro hc
    unfold Parse
    rw [h1.parseFiles_eq fuel (by rw [hlen]; exact hf) []]
    simp only [List.nil_append, ho.combine]
  · rw [if_pos (hcyc.mpr hc)]
  · rw [if_neg (fun h => hc (hcyc.mp h))]
    rfl

/-- C81.  All files can be read and none includes itself: the payload has the files in order, of each what is kept, with its links, and the errors of all files in
order on their lines. -/
theorem C81_done (ho : Collecting env o text matching) (hf : fs.length < fuel) (hfresh : ∀ f ∈ fs, Fresh f.ctx.length)
    (h : Works env o text matching filename fs .done) (hc : ¬ Cyclic (worksNames env o text matching filename) fs) :
    ∃ p, Parse env fuel filename o = .ok p ∧ p.status = (if fs.flatMap (·.lines) = [] then c!"ok" else c!"failed") ∧
      p.config.map (fun c => (c.file, c.status, c.parsed, c.errors.map (·.line))) =
        fs.map (fun f => (f.name, (if f.lines = [] then c!"ok" else c!"failed"), f.tree (worksNames env o text matching filename) (fs.map (·.name)), f.lines)) ∧
      p.errors.map (fun e => (e.file, e.line)) = fs.flatMap (fun f => f.lines.map (f.name, ·)) := by
  obtain ⟨p, -, h1, h2⟩ := works_done ho hf hfresh h
  exact ⟨p, h1 hc, h2⟩

/-- C81.  A file includes itself: the error is that there is a cycle, and nothing is said of the other errors. -/
theorem C81_cycle (ho : Collecting env o text matching) (hf : fs.length < fuel) (hfresh : ∀ f ∈ fs, Fresh f.ctx.length)
    (h : Works env o text matching filename fs .done) (hc : Cyclic (worksNames env o text matching filename) fs) : Parse env fuel filename o = .err cycleError := by
  obtain ⟨p, h1, -⟩ := works_done ho hf hfresh h
  exact h1 hc

/-- C81.  A pattern has given the name of a file that there is not (or there is not even the first file): the error is the one of opening it, and nothing is said of
the other errors. -/
theorem C81_noFile (ho : Collecting env o text matching) (hf : fs.length < fuel) (hfresh : ∀ f ∈ fs, Fresh f.ctx.length) {f : Str}
    (h : Works env o text matching filename fs (.noFile f)) : ∃ n e, env.openFile n f = .error e ∧ Parse env fuel filename o = .err e := by
  obtain ⟨e, n, h1, h2⟩ := h.run ho.disk ho.combine ho.onward (ho.disk.looks ho.patterns ho.onward (env.dir filename)) [] (initPS filename)
    (fun _ => 0) rfl (init_table filename) (init_links filename) hfresh (fun f c ls h => by cases h)
  refine ⟨n, e, h2, ?_⟩
  have := (h1 fuel [] hf).1
  unfold Parse
  generalize parseFiles env o (env.dir filename) fuel (initPS filename) [] = x at this
  obtain ⟨x1, x2⟩ := x
  cases this
  rfl

/-- C81.  `Parse` crashes where a file says so. -/
theorem C81_crash (ho : Collecting env o text matching) (hf : fs.length < fuel) (hfresh : ∀ f ∈ fs, Fresh f.ctx.length) {f : Str} {c : List Str} {ls : List Int}
    (hc : Fresh c.length) (h : Works env o text matching filename fs (.crash f c ls)) : Parse env fuel filename o = .panic := by
  have h1 := h.run ho.disk ho.combine ho.onward (ho.disk.looks ho.patterns ho.onward (env.dir filename)) [] (initPS filename)
    (fun _ => 0) rfl (init_table filename) (init_links filename) hfresh (fun f c ls h => by cases h; exact hc)
  have := (h1 fuel [] hf).1
  unfold Parse
  generalize parseFiles env o (env.dir filename) fuel (initPS filename) [] = x at this
  obtain ⟨x1, x2⟩ := x
  cases this
  rfl

/-- The errors that were found, also if there is no payload. -/
theorem works_errors (ho : Collecting env o text matching) (hf : fs.length < fuel) (hfresh : ∀ f ∈ fs, Fresh f.ctx.length) {e : End}
    (hfr : ∀ f c ls, e = .crash f c ls → Fresh c.length) (h : Works env o text matching filename fs e) :
    (parseFiles env o (env.dir filename) fuel (initPS filename) []).2.payErrors.map (fun e => (e.file, e.line)) = errorLines fs e := by
  have hr := h.run ho.disk ho.combine ho.onward (ho.disk.looks ho.patterns ho.onward (env.dir filename)) [] (initPS filename)
    (fun _ => 0) rfl (init_table filename) (init_links filename) hfresh hfr
  cases e with
  | done =>
    obtain ⟨cs, ps', h1, h2, h3, h4, h5, h6⟩ := hr
    have hlen : cs.length = fs.length := by simpa using congrArg List.length (h2 _ (List.prefix_refl _))
    rw [h1.parseFiles_eq fuel (by rw [hlen]; exact hf) [], h3]
    simp [initPS, errorLines]
  | noFile f =>
    obtain ⟨e, n, h1, -⟩ := hr
    rw [(h1 fuel [] hf).2]; rfl
  | crash f c ls => rw [(hr fuel [] hf).2]; rfl

/-- C81.  Something becomes of any file in any file system with finitely many files: so the four theorems above cover everything, up to the depths of includes. -/
theorem C81_total (F : List Str) (hF : ∀ f, text f ≠ none → f ∈ F) : ∃ fs e, Works env o text matching filename fs e ∧ fs.length ≤ F.length := by
  obtain ⟨fs, e, h1, h2⟩ := Work_total (toks := fun f => (text f).map (fileToks o)) (diskLook env o (env.dir filename) text matching)
    (rulesOf o (worksNames env o text matching filename)) (F := F) (fun f hf => hF f (by simpa using hf)) F.length [(filename, [])] 0 (by omega) (by simp) (by simp)
    (by simp)
  exact ⟨fs, e, h1, by simpa using h2⟩

/-- C81.  A payload without errors: every file was read, none has an error. -/
theorem C81_ok_iff (ho : Collecting env o text matching) (hf : fs.length < fuel) (hfresh : ∀ f ∈ fs, Fresh f.ctx.length)
    (h : Works env o text matching filename fs .done) :
    (∃ p, Parse env fuel filename o = .ok p ∧ p.status = c!"ok") ↔ ¬ Cyclic (worksNames env o text matching filename) fs ∧ ∀ f ∈ fs, f.lines = [] := by
  constructor
  · rintro ⟨p, hp, hs⟩
    have hc : ¬ Cyclic (worksNames env o text matching filename) fs := by
      intro hc
      rw [C81_cycle ho hf hfresh h hc] at hp; cases hp
    obtain ⟨p', h1, h2, -⟩ := C81_done ho hf hfresh h hc
    rw [hp] at h1
    cases h1
    refine ⟨hc, ?_⟩
    rw [hs] at h2
    by_cases hl : fs.flatMap (·.lines) = []
    · exact List.flatMap_eq_nil_iff.mp hl
    · rw [if_neg hl] at h2
      exact absurd h2 (by decide)
  · rintro ⟨hc, hl⟩
    obtain ⟨p', h1, h2, -⟩ := C81_done ho hf hfresh h hc
    exact ⟨p', h1, by rw [h2, if_pos (List.flatMap_eq_nil_iff.mpr hl)]⟩

end

/-- An include of a file that there is not, and an error at the end of another file. -/
def exWorks : List (Str × Str) := [(c!"/e/n", c!"include a;include b;"), (c!"/e/a", c!"x")]

def exWorksFiles : List ReadFile :=
  [⟨c!"/e/n", [], .kept [dir c!"include" 1 [c!"a"], dir c!"include" 1 [c!"b"]] [1]⟩, ⟨c!"/e/a", [], .broken [] (some 1) []⟩]

theorem exWorks_collecting : Collecting (exEnv exWorks) exOpts (exTexts exWorks) (exMatching exWorks) :=
  ⟨fun _ => List.Perm.refl _, exEnv_readOnly _ (by decide +kernel), (fun _ _ _ h => by cases h), rfl, rfl⟩

theorem exHead {t : Tok} (h : WordTok t) (he : t.error = none) : HeadTok t := ⟨he, h.2.2.1, h.1⟩

theorem exInclude {N : List Str → Option (List Str)} (a : Str) (hw : WordTok ⟨a, 1, false, none⟩)
    (hok : analyze [] { directive := c!"include", line := 1, args := [a] } c!";" [] exOpts = none) (toks : List Tok) :
    Statement (rulesOf exOpts N) [] ⟨c!"include", 1, false, none⟩ (⟨a, 1, false, none⟩ :: ⟨c!";", 1, false, none⟩ :: toks)
      (.on [dir c!"include" 1 [a]] [] toks) :=
  Statement.simple (mid := [⟨a, 1, false, none⟩]) (texts := []) (exHead (exWord (by decide)) rfl)
    (mapCtx_none.mp rfl) (by simp [rulesOf, exOpts])
    (.word hw .nil) (Or.inl ⟨rfl, rfl⟩) ((analyze_rules [] { directive := c!"include", line := 1, args := [a] } c!";" [] _ _).mp hok) rfl (by decide)

theorem exWorks_works : Works (exEnv exWorks) exOpts (exTexts exWorks) (exMatching exWorks) c!"/e/n" exWorksFiles .done := by
  have hl1 : lex c!"include a;include b;" = [⟨c!"include", 1, false, none⟩, ⟨c!"a", 1, false, none⟩, ⟨c!";", 1, false, none⟩, ⟨c!"include", 1, false, none⟩,
    ⟨c!"b", 1, false, none⟩, ⟨c!";", 1, false, none⟩] := by decide +kernel
  have hl2 : lex c!"x" = [⟨c!"x", 1, false, none⟩] := by decide +kernel
  refine Work.kept (c := []) (rest := []) rfl (show _ = some (lex c!"include a;include b;") from rfl) ?_ ?_
  · rw [hl1]
    exact KeepsIn.on (exInclude c!"a" (exWord (by decide)) (by decide +kernel) _) (by decide +kernel)
      (KeepsIn.on (exInclude c!"b" (exWord (by decide)) (by decide +kernel) _) (by decide +kernel) .eof)
  · refine Work.broken (known := [(c!"/e/n", []), (c!"/e/a", [])]) (c := []) rfl (show _ = some (lex c!"x") from rfl) ?_ (.done (by decide))
    rw [hl2]
    exact .broken (.premature (args := []) (texts := []) (exHead (exWord (by decide)) rfl) .nil)

theorem exWorks_fresh : ∀ f ∈ exWorksFiles, Fresh f.ctx.length := by
  intro f hf
  rcases List.mem_cons.mp hf with rfl | hf
  · exact Or.inl (Nat.zero_le _)
  · obtain rfl := List.mem_singleton.mp hf
    exact Or.inl (Nat.zero_le _)

theorem exWorks_acyclic : ¬ Cyclic (worksNames (exEnv exWorks) exOpts (exTexts exWorks) (exMatching exWorks) c!"/e/n") exWorksFiles := by
  have hno : ∀ a b, (∃ f ∈ exWorksFiles, f.name = a ∧
      b ∈ (f.refs (worksNames (exEnv exWorks) exOpts (exTexts exWorks) (exMatching exWorks) c!"/e/n")).map (·.1)) → a = c!"/e/n" ∧ b = c!"/e/a" := by
    rintro a b ⟨f, hf, rfl, hb⟩
    rcases List.mem_cons.mp hf with rfl | hf
    · refine ⟨rfl, ?_⟩
      have : b ∈ [c!"/e/a"] := hb
      simpa using this
    · obtain rfl := List.mem_singleton.mp hf
      have : b ∈ ([] : List Str) := hb
      cases this
  rintro ⟨a, h⟩
  have hend : ∀ b, Relation.TransGen (fun a b => ∃ f ∈ exWorksFiles, f.name = a ∧
      b ∈ (f.refs (worksNames (exEnv exWorks) exOpts (exTexts exWorks) (exMatching exWorks) c!"/e/n")).map (·.1)) a b → a = c!"/e/n" ∧ b = c!"/e/a" := by
    intro b h
    induction h with
    | single h => exact hno _ _ h
    | tail _ h ih => exact ⟨ih.1, (hno _ _ h).2⟩
  obtain ⟨h1, h2⟩ := hend a h
  rw [h1] at h2
  exact absurd h2 (by decide)

example : ∃ p, Parse (exEnv exWorks) 3 c!"/e/n" exOpts = .ok p ∧ p.status = c!"failed" ∧
    p.config.map (fun c => (c.file, c.status, c.parsed, c.errors.map (·.line))) =
      [(c!"/e/n", c!"failed", [incl 1 c!"a" [1], dir c!"include" 1 [c!"b"]], [some 1]), (c!"/e/a", c!"failed", [], [some 1])] ∧
    p.errors.map (fun e => (e.file, e.line)) = [(c!"/e/n", some 1), (c!"/e/a", some 1)] := by
  obtain ⟨p, h1, h2, h3, h4⟩ := C81_done (fuel := 3) exWorks_collecting (by decide) exWorks_fresh exWorks_works exWorks_acyclic
  exact ⟨p, h1, h2, h3.trans (by decide +kernel), h4.trans (by decide +kernel)⟩

/-- A file that includes itself. -/
example : Parse (exEnv [(c!"/e/n", c!"include n;")]) 2 c!"/e/n" exOpts = .err cycleError := by
  have hl : lex c!"include n;" = [⟨c!"include", 1, false, none⟩, ⟨c!"n", 1, false, none⟩, ⟨c!";", 1, false, none⟩] := by decide +kernel
  refine C81_cycle (text := exTexts [(c!"/e/n", c!"include n;")]) (matching := exMatching [(c!"/e/n", c!"include n;")])
    (fs := [⟨c!"/e/n", [], .kept [dir c!"include" 1 [c!"n"]] []⟩])
    ⟨fun _ => List.Perm.refl _, exEnv_readOnly _ (by decide +kernel), (fun _ _ _ h => by cases h), rfl, rfl⟩ (by decide) (by
      intro f hf
      obtain rfl := List.mem_singleton.mp hf
      exact Or.inl (Nat.zero_le _)) ?_ ⟨c!"/e/n", .single ⟨_, List.mem_singleton.mpr rfl, rfl, by decide +kernel⟩⟩
  refine Work.kept (c := []) (rest := []) rfl (show _ = some (lex c!"include n;") from rfl) ?_ (.done (by decide +kernel))
  rw [hl]
  exact KeepsIn.on (exInclude c!"n" (exWord (by decide)) (by decide +kernel) _) (by decide +kernel) .eof

/-- `Parse` of a file that there is not. -/
example : ∃ n e, (exEnv []).openFile n c!"/e/n" = .error e ∧ Parse (exEnv []) 1 c!"/e/n" exOpts = .err e :=
  C81_noFile (text := exTexts []) (matching := exMatching []) (fs := [])
    ⟨fun _ => List.Perm.refl _, exEnv_readOnly _ (by decide +kernel), (fun _ _ _ h => by cases h), rfl, rfl⟩ (by decide) (by simp) (.noFile rfl rfl)

/-- `if ();`, where contexts and arguments are not checked. -/
example : Parse (exEnv [(c!"/e/n", c!"if ();")]) 2 c!"/e/n" { skipDirectiveContextCheck := true, skipDirectiveArgsCheck := true } = .panic := by
  have hl : lex c!"if ();" = [⟨c!"if", 1, false, none⟩, ⟨c!"()", 1, false, none⟩, ⟨c!";", 1, false, none⟩] := by decide +kernel
  refine C81_crash (text := exTexts [(c!"/e/n", c!"if ();")]) (matching := exMatching [(c!"/e/n", c!"if ();")]) (fs := []) (f := c!"/e/n") (c := []) (ls := [])
    ⟨fun _ => List.Perm.refl _, exEnv_readOnly _ (by decide +kernel), (fun _ _ _ h => by cases h), rfl, rfl⟩ (by decide) (by simp) (Or.inl (Nat.zero_le _)) ?_
  refine Work.crash (ls := []) (found := []) rfl (show _ = some (lex c!"if ();") from rfl) ?_
  rw [hl]
  refine .crash (.crash (mid := [⟨c!"()", 1, false, none⟩]) (texts := []) (exHead (exWord (by decide)) rfl) (mapCtx_none.mp rfl) (by simp [rulesOf])
    (.word (exWord (by decide)) .nil) (Or.inl ⟨rfl, rfl⟩)
    ((analyze_rules [] { directive := c!"if", line := 1, args := [c!"()"] } c!";" [] _ _).mp (by decide +kernel)) ?_)
  intro args' h
  have := (prepIf_iff (o := {}) (file := []) (t := ⟨c!"if", 1, false, none⟩) (args := [c!"()"])).mpr ⟨args', h, rfl⟩
  have h2 : prepIf (baseStmt {} [] ⟨c!"if", 1, false, none⟩ [c!"()"]) = none := by decide +kernel
  rw [h2] at this
  cases this

/-- A file system in which a pattern matches a name that cannot be opened, as `filepath.Glob` does for a link to nowhere. -/
def exDangling : Env := { exEnv [] with
  openFile := fun _ f => if f = c!"/e/n" then .ok { runes := c!"user a;include z*;" } else .error (.other c!"no such file")
  glob := fun _ _ => .ok [c!"/e/z"] }

/-- C81 (finding).  With errors collected a missing file that is included by its name is one error of the payload (the example above), but if its name comes from a
pattern there is no payload at all: of the right files nothing is known. -/
theorem C81_false_pattern : ∃ (env : Env) (o : ParseOptions) (e : GoErr), o.stopParsingOnError = false ∧ env.openFile 0 c!"/e/n" = .ok { runes := c!"user a;include z*;" } ∧
    Parse env 3 c!"/e/n" o = .err e :=
  ⟨exDangling, exOpts, .other c!"no such file", rfl, by decide +kernel, by decide +kernel⟩

end Verif
