import Verif.Props.Works
import Verif.Props.ProjectCombined
/-!
# C81 with CombineConfigs
-/
namespace Verif
open Spec

/-! The expansion of includes depends on the trees of the configs only. -/
mutual
theorem expands_trees {cs cs' : List Config} (hc : cs.map (·.parsed) = cs'.map (·.parsed)) : ∀ {ds out}, Expands cs ds out → Expands cs' ds out
  | _, _, .nil => .nil
  | _, _, .keep hn hb hds => .keep hn (expandsBlock_trees hc hb) (expands_trees hc hds)
  | _, _, .incl hn hb hi hds => .incl hn (expandsBlock_trees hc hb) (inlines_trees hc hi) (expands_trees hc hds)
theorem expandsBlock_trees {cs cs' : List Config} (hc : cs.map (·.parsed) = cs'.map (·.parsed)) : ∀ {o o'}, ExpandsBlock cs o o' → ExpandsBlock cs' o o'
  | _, _, .none => .none
  | _, _, .some h => .some (expands_trees hc h)
theorem inlines_trees {cs cs' : List Config} (hc : cs.map (·.parsed) = cs'.map (·.parsed)) : ∀ {is out}, Inlines cs is out → Inlines cs' is out
  | _, _, .nil => .nil
  | _, _, .cons (i := i) (c := c) hi he hr => by
    have h1 : (cs'.map (·.parsed))[i]? = some c.parsed := by rw [← hc, List.getElem?_map, hi]; rfl
    rw [List.getElem?_map, Option.map_eq_some_iff] at h1
    obtain ⟨c', h2, h3⟩ := h1
    exact .cons (c := c') h2 (by rw [h3]; exact expands_trees hc he) (inlines_trees hc hr)
end

/-- What is kept of the files, as configs, every directive with the name of its file. -/
def keptConfigs (N : List Str → Option (List Str)) (fs : List ReadFile) : List Config :=
  fs.map fun f => { file := f.name, parsed := tagFile f.name (f.tree N (fs.map (·.name))) }

section
variable {env : Env} {o : ParseOptions} {text : Str → Option FileData} {matching : Str → Option (List Str)} {filename : Str} {fs : List ReadFile} {fuel : Nat}

/-- The first file is the one that `Parse` is given. -/
theorem works_first {e : End} (h : Works env o text matching filename fs e) : fs = [] ∨ ∃ f0 rest, fs = f0 :: rest ∧ f0.name = filename ∧ f0.ctx = [] := by
  unfold Works at h
  generalize hk : ([(filename, [])] : List Ref) = known at h
  cases h with
  | done _ => exact Or.inl rfl
  | noFile _ _ => exact Or.inl rfl
  | crash _ _ _ => exact Or.inl rfl
  | kept h1 _ _ _ => subst hk; cases h1; exact Or.inr ⟨_, _, rfl, rfl, rfl⟩
  | broken h1 _ _ _ => subst hk; cases h1; exact Or.inr ⟨_, _, rfl, rfl, rfl⟩

/-- C81 with CombineConfigs.  All files can be read and none includes itself: the payload has one config, which is what is kept of the first file with every include that
was followed replaced by what is kept of the files it names, right or wrong; it has the errors of all files in order, and is failed iff there are any. -/
theorem C81_combined (ho : Collecting env { o with combineConfigs := false } text matching) (hf : fs.length < fuel) (hfresh : ∀ f ∈ fs, Fresh f.ctx.length)
    (h : Works env { o with combineConfigs := false } text matching filename fs .done)
    (hc : ¬ Cyclic (worksNames env { o with combineConfigs := false } text matching filename) fs) :
    ∃ f0 rest out p, fs = f0 :: rest ∧ f0.name = filename ∧
      Expands (keptConfigs (worksNames env { o with combineConfigs := false } text matching filename) fs)
        (tagFile filename (f0.tree (worksNames env { o with combineConfigs := false } text matching filename) (fs.map (·.name)))) out ∧
      Parse env fuel filename { o with combineConfigs := true } = .ok p ∧ p.status = (if fs.flatMap (·.lines) = [] then c!"ok" else c!"failed") ∧
      p.config.map (fun c => (c.file, c.status, c.parsed, c.errors.map (·.line))) =
        [(filename, (if fs.flatMap (·.lines) = [] then c!"ok" else c!"failed"), out, fs.flatMap (·.lines))] ∧
      p.errors.map (fun e => (e.file, e.line)) = fs.flatMap (fun f => f.lines.map (f.name, ·)) := by
  obtain ⟨p, h1, h2, h3, h4⟩ := C81_done ho hf hfresh h hc
  obtain ⟨q, h5, h6⟩ := Parse_combines ho.perm (o := o) h1
  rcases works_first h with rfl | ⟨f0, rest, rfl, h7, -⟩
  · exfalso
    unfold Works at h
    cases h with
    | done h => simp at h
  generalize worksNames env { o with combineConfigs := false } text matching filename = N at *
  have htree : p.tagFiles.config.map (·.parsed) = (keptConfigs N (f0 :: rest)).map (·.parsed) := by
    have := congrArg (List.map fun x : Str × Str × List Directive × List (Option Int) => tagFile x.1 x.2.2.1) h3
    simpa [Payload.tagFiles, keptConfigs, Function.comp_def] using this
  have hstat : p.tagFiles.config.map (·.status) = (f0 :: rest).map (fun f => if f.lines = [] then c!"ok" else c!"failed") := by
    have := congrArg (List.map fun x : Str × Str × List Directive × List (Option Int) => x.2.1) h3
    simpa [Payload.tagFiles, Function.comp_def] using this
  have hfile : p.tagFiles.config.map (·.file) = (f0 :: rest).map (·.name) := by
    have := congrArg (List.map fun x : Str × Str × List Directive × List (Option Int) => x.1) h3
    simpa [Payload.tagFiles, Function.comp_def] using this
  have hlines : p.tagFiles.config.map (fun c => c.errors.map (·.line)) = (f0 :: rest).map (·.lines) := by
    have := congrArg (List.map fun x : Str × Str × List Directive × List (Option Int) => x.2.2.2) h3
    simpa [Payload.tagFiles, Function.comp_def] using this
  obtain ⟨c0, cs, hcs⟩ : ∃ c0 cs, p.tagFiles.config = c0 :: cs := by
    cases hx : p.tagFiles.config with
    | nil => rw [hx] at htree; cases htree
    | cons c0 cs => exact ⟨c0, cs, rfl⟩
  obtain ⟨out, st, g1, g2, g3⟩ := (C35_combined_iff _ q _ _ hcs).mp ⟨_, h6⟩
  have e0 : c0.parsed = tagFile filename (f0.tree N ((f0 :: rest).map (·.name))) := by
    rw [← h7]
    have htree := htree
    rw [hcs] at htree
    exact List.head_eq_of_cons_eq htree
  have e1 : c0.file = filename := by
    rw [← h7]
    rw [hcs] at hfile
    exact List.head_eq_of_cons_eq hfile
  have hst : st = if (f0 :: rest).flatMap (·.lines) = [] then c!"ok" else c!"failed" := by
    have hmem : ∀ f ∈ f0 :: rest, ∃ c ∈ p.tagFiles.config, c.status = if f.lines = [] then c!"ok" else c!"failed" := by
      intro f hf
      have : (if f.lines = [] then c!"ok" else c!"failed") ∈ p.tagFiles.config.map (·.status) := by rw [hstat]; exact List.mem_map_of_mem hf
      exact List.mem_map.mp this
    have hmem' : ∀ c ∈ p.tagFiles.config, ∃ f ∈ f0 :: rest, c.status = if f.lines = [] then c!"ok" else c!"failed" := by
      intro c hc
      have : c.status ∈ (f0 :: rest).map (fun f => if f.lines = [] then c!"ok" else c!"failed") := by rw [← hstat]; exact List.mem_map_of_mem hc
      obtain ⟨f, hf, he⟩ := List.mem_map.mp this
      exact ⟨f, hf, he.symm⟩
    rcases g2 with ⟨rfl, c, hc, hs⟩ | ⟨rfl, hs⟩
    · obtain ⟨f, hf, he⟩ := hmem' c hc
      rw [if_neg]
      intro hall
      rw [List.flatMap_eq_nil_iff.mp hall f hf, hs] at he
      exact absurd he (by decide)
    · rw [if_pos]
      refine List.flatMap_eq_nil_iff.mpr fun f hf => ?_
      obtain ⟨c, hc, he⟩ := hmem f hf
      by_cases hl : f.lines = []
      · exact hl
      · rw [if_neg hl] at he
        exact absurd he (hs c hc)
  refine ⟨f0, rest, out, q, rfl, h7, expands_trees htree (by rw [← e0]; exact g1), h5, ?_, ?_, ?_⟩
  · rw [g3]
    show (if p.status = [] then _ else p.status) = _
    rw [h2]
    by_cases hl : (f0 :: rest).flatMap (·.lines) = []
    · rw [if_pos hl]; rfl
    · rw [if_neg hl]; rfl
  · rw [g3]
    simp only [List.map_cons, List.map_nil, e1, hst, List.map_flatMap]
    rw [List.flatMap_def, List.flatMap_def, hlines]
  · rw [g3]
    exact h4

/-- C81 with CombineConfigs.  Where there is no payload without CombineConfigs, there is none with it, for the same reason. -/
theorem C81_combined_none : (∀ e, Parse env fuel filename { o with combineConfigs := false } = .err e → Parse env fuel filename { o with combineConfigs := true } = .err e) ∧
    (Parse env fuel filename { o with combineConfigs := false } = .panic → Parse env fuel filename { o with combineConfigs := true } = .panic) :=
  ⟨fun e h => by rw [C33_combined, h]; rfl, fun h => by rw [C33_combined, h]; rfl⟩

end

/-- The include of the file that ends with an error is replaced by nothing; the one of the missing file stays. -/
example : ∃ p, Parse (exEnv exWorks) 3 c!"/e/n" { exOpts with combineConfigs := true } = .ok p ∧ p.status = c!"failed" ∧
    p.config.map (fun c => (c.file, c.status, c.parsed, c.errors.map (·.line))) =
      [(c!"/e/n", c!"failed", [⟨c!"include", 1, [c!"b"], c!"/e/n", none, none, none, false⟩], [some 1, some 1])] := by
  obtain ⟨f0, rest, out, p, h1, -, h2, h3, h4, h5, -⟩ := C81_combined (o := exOpts) (fuel := 3) exWorks_collecting (by decide) exWorks_fresh exWorks_works exWorks_acyclic
  refine ⟨p, h3, h4, h5.trans ?_⟩
  cases h1
  have hx : Expands (keptConfigs (worksNames (exEnv exWorks) exOpts (exTexts exWorks) (exMatching exWorks) c!"/e/n") exWorksFiles)
      [⟨c!"include", 1, [c!"a"], c!"/e/n", some [1], none, none, false⟩, ⟨c!"include", 1, [c!"b"], c!"/e/n", none, none, none, false⟩]
      [⟨c!"include", 1, [c!"b"], c!"/e/n", none, none, none, false⟩] :=
    .incl (out1 := []) ⟨rfl, by simp⟩ .none (.cons (i := 1) (out1 := []) (out := []) (c := { file := c!"/e/a", parsed := [] }) (by decide +kernel) .nil .nil)
      (.keep (b := none) (fun h => h.2 rfl) .none .nil)
  rw [expands_det h2 hx]
  rfl

end Verif
