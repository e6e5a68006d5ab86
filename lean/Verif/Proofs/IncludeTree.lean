import Verif.Proofs.IncludeGraph
import Verif.Props.Errors
/-!
# The includes of the tree are edges of the graph
-/
namespace Verif
open Spec

/-- Every index in `Includes` belongs to a file that `file` includes. -/
def KnownIncludes (file : Str) (ps : PS) (d : Directive) : Prop :=
  ∀ i ∈ d.includes.getD [], ∃ f, ps.included.lookup f = some i ∧ ps.Edge file f

/-- The table and the edges grow. -/
def Grows (a b : PS) : Prop := (∃ more, b.included = a.included ++ more) ∧ ∀ u v, a.Edge u v → b.Edge u v

theorem grows_rel (o : ParseOptions) (file : Str) : StateRel o file Grows where
  refl ps := ⟨(included_rel o file).refl ps, (edge_rel o file).refl ps⟩
  trans h1 h2 := ⟨(included_rel o file).trans h1.1 h2.1, (edge_rel o file).trans h1.2 h2.2⟩
  err ps e := ⟨(included_rel o file).err ps e, (edge_rel o file).err ps e⟩
  opens ps := ⟨(included_rel o file).opens ps, (edge_rel o file).opens ps⟩
  globs ps := ⟨(included_rel o file).globs ps, (edge_rel o file).globs ps⟩
  add ctx stmt ps f := ⟨(included_rel o file).add ctx stmt ps f, (edge_rel o file).add ctx stmt ps f⟩
  enter stmt ctx ps := ⟨(included_rel o file).enter stmt ctx ps, (edge_rel o file).enter stmt ctx ps⟩

theorem KnownIncludes.mono {file : Str} {a b : PS} {d : Directive} (h : KnownIncludes file a d) (hg : Grows a b) : KnownIncludes file b d := by
  intro i hi
  obtain ⟨f, h1, h2⟩ := h i hi
  obtain ⟨⟨more, hm⟩, he⟩ := hg
  exact ⟨f, by rw [hm]; exact assoc_append h1, he _ _ h2⟩

theorem knownIncludes_none {file : Str} {ps : PS} {d : Directive} (h : d.includes = none) : KnownIncludes file ps d := by
  intro i hi; rw [h] at hi; cases hi

theorem addIncludes_known (o : ParseOptions) (file : Str) (ctx : Ctx) (stmt : Directive) (ps : PS) (names : List Str) (hn : stmt.includes = none) :
    KnownIncludes file (addIncludes file ctx stmt ps names).2 (addIncludes file ctx stmt ps names).1 := by
  obtain ⟨is, h1, h2, h3⟩ := addIncludes_directive o file ctx stmt ps names
  by_cases hne : names = []
  · rw [h2 hne]; exact knownIncludes_none hn
  · intro i hi
    rw [h1 hne] at hi
    simp only [hn, Option.getD_none, List.nil_append, Option.getD_some] at hi
    have : ∃ f ∈ names, (addIncludes file ctx stmt ps names).2.included.lookup f = some i := by
      clear h1 h2 hne
      generalize (addIncludes file ctx stmt ps names).2.included = m at h3
      induction h3 with
      | nil => cases hi
      | cons h _ ih =>
        rcases List.mem_cons.mp hi with rfl | hi
        · exact ⟨_, by simp, h⟩
        · obtain ⟨f, h1, h2⟩ := ih hi
          exact ⟨f, List.mem_cons_of_mem _ h1, h2⟩
    obtain ⟨f, hf, hl⟩ := this
    refine ⟨f, hl, ?_⟩
    unfold PS.Edge
    rw [addIncludes_edges, if_pos rfl]
    exact List.mem_append_right _ hf

theorem doInclude_known {env : Env} {o : ParseOptions} {configDir file : Str} {ctx : Ctx} {stmt stmt' : Directive} {ps ps' : PS}
    (hn : stmt.includes = none) (h : doInclude env o configDir file ctx stmt ps = (.ok stmt', ps')) : KnownIncludes file ps' stmt' := by
  have hr := doInclude_inclR env o configDir file ctx stmt ps
  rw [h] at hr
  cases hr with
  | other => exact knownIncludes_none hn
  | globOk a as names => exact addIncludes_known o file ctx stmt _ _ hn
  | openBad => exact knownIncludes_none hn
  | openOk a as data => exact addIncludes_known o file ctx stmt _ _ hn

theorem RunOk.known {env : Env} {o : ParseOptions} {configDir file : Str} {ctx : Ctx} {toks : List Tok} {ps : PS}
    {ds : List Directive} {toks' : List Tok} {ps' : PS} (h : RunOk env o configDir file ctx toks ps ds toks' ps') :
    ∀ d, Within d ds → KnownIncludes file ps' d := by
  induction h with
  | eof => exact fun d h => absurd h within_nil
  | stop => exact fun d h => absurd h within_nil
  | next ctx t toks ps new toks1 ps1 ds toks' ps' hs hr ih =>
    intro d hd
    rcases within_append.mp hd with hd | hd
    · have hn := step_next_nodes hs
      have hm : d ∈ new := by
        cases hd with
        | here h => exact h
        | deep h h1 => rw [(hn _ h).1] at h1; cases h1
      refine KnownIncludes.mono ?_ ((grows_rel o file).runOk hr)
      have hc := step_cases env o configDir file ctx t toks ps
      rw [hs] at hc
      cases hc with
      | comment =>
        split at hm
        · obtain rfl := List.mem_singleton.mp hm; exact knownIncludes_none rfl
        · cases hm
      | mapBad => cases hm
      | mapOk => obtain rfl := List.mem_singleton.mp hm; exact knownIncludes_none rfl
      | ignored => cases hm
      | rejectSkip => cases hm
      | reject => cases hm
      | simple args comments term rest stmt stmt' ps' R h1 h2 h3 h4 h5 h6 =>
        rcases List.mem_append.mp hm with hm | hm
        · obtain rfl := List.mem_singleton.mp hm
          exact doInclude_known (by rw [prepIf_some h4]; rfl) h5
        · obtain ⟨c, -, rfl⟩ := List.mem_map.mp hm
          exact knownIncludes_none rfl
    · exact ih d hd
  | block ctx t toks ps stmt comments toks1 ps1 b toks2 ps2 ds toks' ps' hs h1 h2 ih1 ih2 =>
    intro d hd
    have g2 := (grows_rel o file).runOk h2
    have g1 := (grows_rel o file).trans ((grows_rel o file).enter stmt ctx ps1) ((grows_rel o file).runOk h1)
    rcases within_cons.mp hd with rfl | ⟨b', hb, hd⟩ | hd
    · have hc := step_cases env o configDir file ctx t toks ps
      rw [hs] at hc
      cases hc with
      | block args comments term rest stmt stmt' ps' R h1 h2 h3 h4 h5 h6 =>
        have := doInclude_known (by rw [prepIf_some h4]; rfl) h5
        exact (show KnownIncludes file ps1 _ from this).mono ((grows_rel o file).trans g1 g2)
    · cases hb
      exact (ih1 d hd).mono g2
    · rcases within_append.mp hd with hd | hd
      · have hm : d ∈ commentDirectives stmt.line (fileName o file) comments := by
          cases hd with
          | here h => exact h
          | deep h h1 =>
            obtain ⟨c, -, rfl⟩ := List.mem_map.mp h
            cases h1
        obtain ⟨c, -, rfl⟩ := List.mem_map.mp hm
        exact knownIncludes_none rfl
      · exact ih2 d hd

theorem FilesOk.known {env : Env} {o : ParseOptions} {configDir : Str} {ps ps' : PS} {cs : List Config}
    (h : FilesOk env o configDir ps cs ps') : Grows ps ps' ∧ ∀ cfg ∈ cs, ∀ d, Within d cfg.parsed → KnownIncludes cfg.file ps' d := by
  induction h with
  | nil ps => exact ⟨(grows_rel {} []).refl ps, fun c hc => by cases hc⟩
  | ok ps incl rest data ds toks' ps1 cs ps' hi ho hr hf ih =>
    obtain ⟨g, ih⟩ := ih
    have g1 := (grows_rel o incl.path).runOk hr
    refine ⟨(grows_rel o incl.path).trans (b := ps1) g1 g, fun cfg hc d hd => ?_⟩
    rcases List.mem_cons.mp hc with rfl | hc
    · exact (hr.known d hd).mono g
    · exact ih cfg hc d hd
  | bad ps incl rest data e toks' ps1 cs ps' hi ho hr hs hf ih =>
    obtain ⟨g, ih⟩ := ih
    have g1 := (grows_rel o incl.path).trans ((grows_rel o incl.path).runFail hr) ((grows_rel o incl.path).err ps1 e)
    refine ⟨(grows_rel o incl.path).trans g1 g, fun cfg hc d hd => ?_⟩
    rcases List.mem_cons.mp hc with rfl | hc
    · exact absurd hd within_nil
    · exact ih cfg hc d hd

/-- At the end: an index named in config `i` is that of a config, and the two files are joined by an edge. -/
theorem FilesOk.names {env : Env} {o : ParseOptions} {configDir filename : Str} {ps' : PS} {cs : List Config}
    (h : FilesOk env o configDir (initPS filename) cs ps') {i : Nat} {d : Directive} {j : Int} (hn : Names cs i d j) :
    ∃ (n : Nat) (ci cj : Config), j = n ∧ cs[i]? = some ci ∧ cs[n]? = some cj ∧ ps'.Edge ci.file cj.file := by
  obtain ⟨ci, hi, hw, -, hj⟩ := hn
  obtain ⟨f, h1, h2⟩ := h.known.2 ci (List.mem_of_getElem? hi) d hw j hj
  rw [h.included_eq.1] at h1
  obtain ⟨n, rfl, hl⟩ := indexed_lookup h1
  rw [List.getElem?_map] at hl
  cases hc : cs[n]? with
  | none => rw [hc] at hl; cases hl
  | some cj =>
    rw [hc] at hl
    cases hl
    exact ⟨n, ci, cj, rfl, hi, hc, h2⟩

end Verif
