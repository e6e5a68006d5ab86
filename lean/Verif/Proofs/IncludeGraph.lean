import Verif.Proofs.Kahn
import Verif.Proofs.ParseTop
import Verif.Proofs.Visits
/-!
# The table of included files and the include graph
-/
namespace Verif
open Spec

/-! ## The table -/

/-- The names with their positions. -/
def indexed (l : List Str) : List (Str × Int) := l.zipIdx.map (fun p => (p.1, (p.2 : Int)))

theorem indexed_snoc (l : List Str) (f : Str) : indexed (l ++ [f]) = indexed l ++ [(f, (l.length : Int))] := by
  simp [indexed, List.zipIdx_append]

theorem indexed_keys (l : List Str) : (indexed l).map (·.1) = l := by
  simp [indexed, Function.comp_def]

theorem indexed_length (l : List Str) : (indexed l).length = l.length := by simp [indexed]

/-- The positions of names without repetitions. -/
theorem indexed_lookup {l : List Str} {f : Str} {i : Int} (h : (indexed l).lookup f = some i) :
    ∃ n : Nat, i = n ∧ l[n]? = some f := by
  have hm : ∀ {m : List (Str × Int)}, m.lookup f = some i → (f, i) ∈ m := by
    intro m
    induction m with
    | nil => intro h; cases h
    | cons e m ih =>
      intro h
      rw [List.lookup_cons] at h
      split at h
      · rename_i he
        have := eq_of_beq he
        cases h
        rw [this]; simp
      · exact List.mem_cons_of_mem _ (ih h)
  have := hm h
  unfold indexed at this
  obtain ⟨p, hp, he⟩ := List.mem_map.mp this
  cases he
  exact ⟨p.2, rfl, by simpa using List.mem_zipIdx_iff_getElem?.mp hp⟩

/-- The names on the worklist. -/
def PS.paths (ps : PS) : List Str := ps.includes.map (·.path)

/-- `included` holds the processed files and those on the worklist, with their positions. -/
structure Table (done : List Str) (ps : PS) : Prop where
  included : ps.included = indexed (done ++ ps.paths)
  nodup : (done ++ ps.paths).Nodup

theorem Table.keys {done : List Str} {ps : PS} (h : Table done ps) : ps.included.map (·.1) = done ++ ps.paths := by
  rw [h.included, indexed_keys]

theorem enterBlockCtx_paths (stmt : Directive) (ctx : Ctx) (ps : PS) : (enterBlockCtx stmt ctx ps).2.paths = ps.paths := by
  unfold enterBlockCtx PS.paths
  split
  · rfl
  · split
    · simp [Function.comp_def]
    · rfl

theorem table_rel (done : List Str) (o : ParseOptions) (file : Str) : StateRel o file (fun a b => Table done a → Table done b) where
  refl ps := id
  trans h1 h2 h := h2 (h1 h)
  err ps e h := ⟨h.1, h.2⟩
  opens ps h := ⟨h.1, h.2⟩
  globs ps h := ⟨h.1, h.2⟩
  add ctx stmt ps f h := by
    unfold addInclude
    cases hl : ps.included.lookup f with
    | some i => exact ⟨h.1, h.2⟩
    | none =>
      have hf : f ∉ done ++ ps.paths := by
        rw [← h.keys]; exact assoc_none_iff.mp hl
      simp only
      constructor
      · simp only [PS.paths, List.map_append, List.map_cons, List.map_nil]
        rw [← List.append_assoc, indexed_snoc, h.included, indexed_length]
        rfl
      · simp only [PS.paths, List.map_append, List.map_cons, List.map_nil]
        rw [← List.append_assoc, List.nodup_append]
        refine ⟨h.2, by simp, ?_⟩
        rintro a ha b hb rfl
        obtain rfl := List.mem_singleton.mp hb
        exact hf ha
  enter stmt ctx ps h := by
    constructor
    · rw [enterBlockCtx_included, enterBlockCtx_paths]; exact h.1
    · rw [enterBlockCtx_paths]; exact h.2

theorem Table.start {done : List Str} {ps : PS} {incl : FileCtx} {rest : List FileCtx} (h : Table done ps) (hi : ps.includes = incl :: rest) :
    Table (done ++ [incl.path]) (startFile ps rest) := by
  have hp : ps.paths = incl.path :: rest.map (·.path) := by simp [PS.paths, hi]
  obtain ⟨h1, h2⟩ := h
  rw [hp] at h1 h2
  exact ⟨by simpa [startFile, PS.paths] using h1, by simpa [startFile, PS.paths] using h2⟩

theorem FilesOk.table {env : Env} {o : ParseOptions} {configDir : Str} {ps ps' : PS} {cs : List Config}
    (h : FilesOk env o configDir ps cs ps') {done : List Str} (ht : Table done ps) :
    Table (done ++ cs.map (·.file)) ps' ∧ ps'.includes = [] := by
  induction h generalizing done with
  | nil ps h => exact ⟨by simpa using ht, h⟩
  | ok ps incl rest data ds toks' ps1 cs ps' hi ho hr hf ih =>
    have := ih ((table_rel _ o incl.path).runOk hr (ht.start hi))
    simpa [fileConfig] using this
  | bad ps incl rest data e toks' ps1 cs ps' hi ho hr hs hf ih =>
    have := ih ((table_rel _ o incl.path).err _ e ((table_rel _ o incl.path).runFail hr (ht.start hi)))
    simpa [fileConfig] using this

theorem init_table (filename : Str) : Table [] (initPS filename) := ⟨rfl, by simp [initPS, PS.paths]⟩

/-- At the end the table has the configs with their positions. -/
theorem FilesOk.included_eq {env : Env} {o : ParseOptions} {configDir filename : Str} {ps' : PS} {cs : List Config}
    (h : FilesOk env o configDir (initPS filename) cs ps') :
    ps'.included = indexed (cs.map (·.file)) ∧ (cs.map (·.file)).Nodup := by
  obtain ⟨h1, h2⟩ := h.table (init_table filename)
  have hp : ps'.paths = [] := by simp [PS.paths, h2]
  obtain ⟨h3, h4⟩ := h1
  rw [hp] at h3 h4
  exact ⟨by simpa using h3, by simpa using h4⟩

/-- Files that are parsed could be opened, and are distinct. -/
theorem FilesMore.table {env : Env} {o : ParseOptions} {configDir : Str} {n : Nat} {ps ps' : PS}
    (h : FilesMore env o configDir n ps ps') {done : List Str} (ht : Table done ps) :
    ∃ fs : List Str, fs.length = n ∧ Table (done ++ fs) ps' ∧ ∀ f ∈ fs, ∃ k data, env.openFile k f = .ok data := by
  induction h generalizing done with
  | zero ps => exact ⟨[], rfl, by simpa using ht, fun f hf => by cases hf⟩
  | ok n ps incl rest data ds toks' ps1 ps' hi ho hr hf ih =>
    obtain ⟨fs, h1, h2, h3⟩ := ih ((table_rel _ o incl.path).runOk hr (ht.start hi))
    refine ⟨incl.path :: fs, by simp [h1], by simpa using h2, fun f hf => ?_⟩
    rcases List.mem_cons.mp hf with rfl | hf
    · exact ⟨_, _, ho⟩
    · exact h3 f hf
  | bad n ps incl rest data e toks' ps1 ps' hi ho hr hs hf ih =>
    obtain ⟨fs, h1, h2, h3⟩ := ih ((table_rel _ o incl.path).err _ e ((table_rel _ o incl.path).runFail hr (ht.start hi)))
    refine ⟨incl.path :: fs, by simp [h1], by simpa using h2, fun f hf => ?_⟩
    rcases List.mem_cons.mp hf with rfl | hf
    · exact ⟨_, _, ho⟩
    · exact h3 f hf

/-! ## The graph -/

/-- The recorded edge from `u` to `v`. -/
def PS.Edge (ps : PS) (u v : Str) : Prop := v ∈ outEdges ps.includeEdges u

/-- The edges and in-degrees of a state fit together. -/
structure Graph (ps : PS) (G : List (Str × Str)) : Prop where
  edges : ∀ u, outEdges ps.includeEdges u = (G.filter (fun e => e.1 = u)).map (·.2)
  deg : ∀ k, inDeg ps.includeInDegree k = ((G.map (·.2)).count k : Nat)
  keys : ps.includeInDegree.map (·.1) = ps.included.map (·.1)
  known : ∀ e ∈ G, e.1 ∈ ps.included.map (·.1) ∧ e.2 ∈ ps.included.map (·.1)

theorem Graph.edge {ps : PS} {G : List (Str × Str)} (h : Graph ps G) (u v : Str) : ps.Edge u v ↔ (u, v) ∈ G := by
  unfold PS.Edge
  rw [h.edges, List.mem_map]
  constructor
  · rintro ⟨⟨a, b⟩, he, rfl⟩
    obtain ⟨he', hu⟩ := List.mem_filter.mp he
    have hu : a = u := of_decide_eq_true hu
    subst hu
    exact he'
  · intro he
    exact ⟨(u, v), List.mem_filter.mpr ⟨he, by simp⟩, rfl⟩

/-- The state after an edge was added. -/
theorem graph_addInclude (file : Str) (ctx : Ctx) (stmt : Directive) (ps : PS) (f : Str) (G : List (Str × Str)) (hf : file ∈ ps.included.map (·.1))
    (h : Graph ps G) : Graph (addInclude file ctx stmt ps f).2 (G ++ [(file, f)]) ∧
      file ∈ (addInclude file ctx stmt ps f).2.included.map (·.1) := by
  have hinc : ∃ more, (addInclude file ctx stmt ps f).2.included.map (·.1) = ps.included.map (·.1) ++ more ∧
      more = (if f ∈ ps.included.map (·.1) then [] else [f]) := by
    unfold addInclude
    cases hl : ps.included.lookup f with
    | some i =>
      have : f ∈ ps.included.map (·.1) := by
        by_contra hn
        rw [assoc_none_iff.mpr hn] at hl; cases hl
      exact ⟨[], by simp, by rw [if_pos this]⟩
    | none => exact ⟨[f], by simp, by rw [if_neg (assoc_none_iff.mp hl)]⟩
  obtain ⟨more, hm, hmore⟩ := hinc
  have he : (addInclude file ctx stmt ps f).2.includeEdges = mapSet ps.includeEdges file (outEdges ps.includeEdges file ++ [f]) := by
    unfold addInclude outEdges
    cases ps.included.lookup f <;> rfl
  have hd : (addInclude file ctx stmt ps f).2.includeInDegree = mapSet ps.includeInDegree f (inDeg ps.includeInDegree f + 1) := by
    unfold addInclude inDeg
    cases ps.included.lookup f <;> rfl
  refine ⟨⟨fun u => ?_, fun k => ?_, ?_, fun e hE => ?_⟩, by rw [hm]; simp [hf]⟩
  · unfold outEdges
    rw [he, lookup_mapSet]
    rw [List.filter_append, List.map_append, ← h.edges u]
    by_cases hu : u = file
    · subst hu; simp
    · rw [if_neg hu, List.filter_cons]
      have : ¬ file = u := fun h => hu h.symm
      simp [this]
      rfl
  · rw [hd, inDeg_mapSet, List.map_append, List.count_append]
    by_cases hk : k = f
    · subst hk; rw [if_pos rfl, h.deg k]; simp
    · have : ¬ f = k := fun h => hk h.symm
      rw [if_neg hk, h.deg k]; simp [this]
  · rw [hd, mapSet_keys, h.keys, hm, hmore]
    split <;> simp
  · rw [hm]
    rcases List.mem_append.mp hE with hE | hE
    · obtain ⟨h1, h2⟩ := h.known e hE
      exact ⟨List.mem_append_left _ h1, List.mem_append_left _ h2⟩
    · obtain rfl := List.mem_singleton.mp hE
      refine ⟨List.mem_append_left _ hf, ?_⟩
      rw [hmore]
      split
      · rename_i h; simpa using h
      · simp

/-- There are fitting edges, and `file` is known. -/
def GraphOk (file : Str) (ps : PS) : Prop := file ∈ ps.included.map (·.1) ∧ ∃ G, Graph ps G

theorem graph_rel (o : ParseOptions) (file : Str) : StateRel o file (fun a b => GraphOk file a → GraphOk file b) where
  refl ps := id
  trans h1 h2 h := h2 (h1 h)
  err ps e h := ⟨h.1, h.2.imp fun G h => ⟨h.1, h.2, h.3, h.4⟩⟩
  opens ps h := ⟨h.1, h.2.imp fun G h => ⟨h.1, h.2, h.3, h.4⟩⟩
  globs ps h := ⟨h.1, h.2.imp fun G h => ⟨h.1, h.2, h.3, h.4⟩⟩
  add ctx stmt ps f h := by
    obtain ⟨h1, G, h2⟩ := h
    obtain ⟨h3, h4⟩ := graph_addInclude file ctx stmt ps f G h1 h2
    exact ⟨h4, _, h3⟩
  enter stmt ctx ps h := by
    obtain ⟨h1, G, h2⟩ := h
    have e1 := enterBlockCtx_included stmt ctx ps
    have e2 : (enterBlockCtx stmt ctx ps).2.includeEdges = ps.includeEdges ∧
        (enterBlockCtx stmt ctx ps).2.includeInDegree = ps.includeInDegree := by
      unfold enterBlockCtx
      split
      · exact ⟨rfl, rfl⟩
      · split <;> exact ⟨rfl, rfl⟩
    refine ⟨by rw [e1]; exact h1, G, ?_, ?_, ?_, ?_⟩
    · rw [e2.1]; exact h2.1
    · rw [e2.2]; exact h2.2
    · rw [e1, e2.2]; exact h2.3
    · rw [e1]; exact h2.4

theorem FilesOk.graph {env : Env} {o : ParseOptions} {configDir : Str} {ps ps' : PS} {cs : List Config}
    (h : FilesOk env o configDir ps cs ps') {done : List Str} (ht : Table done ps) (hg : ∃ G, Graph ps G) : ∃ G, Graph ps' G := by
  induction h generalizing done with
  | nil ps h => exact hg
  | ok ps incl rest data ds toks' ps1 cs ps' hi ho hr hf ih =>
    have h1 := ht.start hi
    have hk : GraphOk incl.path (startFile ps rest) := by
      refine ⟨?_, hg.imp fun G h => ⟨h.1, h.2, h.3, h.4⟩⟩
      rw [h1.keys]; simp
    exact ih ((table_rel _ o incl.path).runOk hr h1) ((graph_rel o incl.path).runOk hr hk).2
  | bad ps incl rest data e toks' ps1 cs ps' hi ho hr hs hf ih =>
    have h1 := ht.start hi
    have hk : GraphOk incl.path (startFile ps rest) := by
      refine ⟨?_, hg.imp fun G h => ⟨h.1, h.2, h.3, h.4⟩⟩
      rw [h1.keys]; simp
    exact ih ((table_rel _ o incl.path).err _ e ((table_rel _ o incl.path).runFail hr h1))
      ((graph_rel o incl.path).err _ e ((graph_rel o incl.path).runFail hr hk)).2

theorem init_graph (filename : Str) : Graph (initPS filename) [] where
  edges u := rfl
  deg k := by
    unfold inDeg initPS
    simp only [List.lookup_cons, List.lookup_nil]
    split <;> rfl
  keys := rfl
  known e he := by cases he

/-- `isAcyclic` decides whether the recorded edges have a cycle, whatever the iteration order of the map. -/
theorem isAcyclic_spec {env : Env} (hperm : ∀ l, (env.mapOrder l).Perm l) {ps : PS} {G : List (Str × Str)} (h : Graph ps G)
    (hk : (ps.included.map (·.1)).Nodup) :
    (isAcyclic env ps = true ↔ ∃ a, Relation.TransGen ps.Edge a a) ∧
    (isAcyclic env ps = false → ∃ order : Str → Nat, (∀ u v, ps.Edge u v → order u < order v) ∧
      ∀ u ∈ ps.included.map (·.1), order u < ps.included.length) := by
  have hlen : ps.includeInDegree.length = (ps.included.map (·.1)).length := by rw [← h.keys]; simp
  have hedge : ps.Edge = fun u v => (u, v) ∈ G := by
    funext u v; exact propext (h.edge u v)
  have hp := hperm (ps.includeInDegree.map (·.1))
  obtain ⟨k1, k2⟩ := kahn_correct (queue := (env.mapOrder (ps.includeInDegree.map (·.1))).filter
      (fun k => (ps.includeInDegree.lookup k).getD 0 == 0)) hk h.edges h.known h.deg
    (List.Nodup.filter _ (hp.nodup_iff.mpr (by rw [h.keys]; exact hk)))
    (fun k => by
      rw [List.mem_filter, hp.mem_iff, h.keys]
      simp [inDeg])
  have hdef : isAcyclic env ps = (kahnLoop ps.includeEdges ((ps.included.map (·.1)).length + 1) ps.includeInDegree
      ((env.mapOrder (ps.includeInDegree.map (·.1))).filter (fun k => (ps.includeInDegree.lookup k).getD 0 == 0)) 0 !=
      (ps.included.map (·.1)).length) := by
    unfold isAcyclic; rw [hlen]
  by_cases hc : kahnLoop ps.includeEdges ((ps.included.map (·.1)).length + 1) ps.includeInDegree
      ((env.mapOrder (ps.includeInDegree.map (·.1))).filter (fun k => (ps.includeInDegree.lookup k).getD 0 == 0)) 0 =
      (ps.included.map (·.1)).length
  · obtain ⟨order, h1, h2⟩ := k1 hc
    have hf : isAcyclic env ps = false := by rw [hdef, hc]; simp
    refine ⟨?_, fun _ => ⟨order, by rw [hedge]; exact h1, by simpa using h2⟩⟩
    rw [hf, hedge]
    constructor
    · intro h; cases h
    · intro hcyc; exact absurd hcyc (no_cycle h1)
  · have hcyc := k2 hc
    have ht : isAcyclic env ps = true := by rw [hdef]; simpa using hc
    rw [ht]
    exact ⟨⟨fun _ => by rw [hedge]; exact hcyc, fun _ => rfl⟩, fun h => by cases h⟩

/-! ## The edges are the includes the parser comes across -/

/-- The statement at a round is an include that is accepted, and `names` are the files it stands for. -/
inductive AddsNames (env : Env) (o : ParseOptions) (configDir file : Str) (ctx : Ctx) (t : Tok) (toks : List Tok) (ps : PS) : List Str → Prop
  | glob (args comments term rest a as names) : Reads o t toks args comments term rest → mapCtx ctx.vals = none →
      contains o.ignoreDirectives t.value = false → analyze file (baseStmt o file t args) term.value ctx.vals o = none →
      o.singleFile = false → t.value = c!"include" → args = a :: as → hasMagic (resolve env configDir a) = true →
      env.glob ps.globs (resolve env configDir a) = .ok names → AddsNames env o configDir file ctx t toks ps (sortStrings names)
  | file (args comments term rest a as data) : Reads o t toks args comments term rest → mapCtx ctx.vals = none →
      contains o.ignoreDirectives t.value = false → analyze file (baseStmt o file t args) term.value ctx.vals o = none →
      o.singleFile = false → t.value = c!"include" → args = a :: as → hasMagic (resolve env configDir a) = false →
      env.openFile ps.opens (resolve env configDir a) = .ok data → AddsNames env o configDir file ctx t toks ps [resolve env configDir a]

theorem addIncludes_edges (file : Str) (ctx : Ctx) (stmt : Directive) (ps : PS) (names : List Str) (u : Str) :
    outEdges (addIncludes file ctx stmt ps names).2.includeEdges u = outEdges ps.includeEdges u ++ (if u = file then names else []) := by
  induction names generalizing stmt ps with
  | nil => unfold addIncludes; simp
  | cons f fs ih =>
    unfold addIncludes
    rw [ih]
    have he : (addInclude file ctx stmt ps f).2.includeEdges = mapSet ps.includeEdges file (outEdges ps.includeEdges file ++ [f]) := by
      unfold addInclude outEdges
      cases ps.included.lookup f <;> rfl
    rw [he]
    unfold outEdges
    rw [lookup_mapSet]
    by_cases hu : u = file
    · subst hu; simp
    · simp [hu]

theorem prepIf_other {d : Directive} (h : d.directive ≠ c!"if") : prepIf d = some d := by
  unfold prepIf
  rw [if_neg (by simpa using h)]

/-- The edges after a round: those before and those to the included files. -/
theorem step_edges (env : Env) (o : ParseOptions) (configDir file : Str) (ctx : Ctx) (t : Tok) (toks : List Tok) (ps : PS) (u v : Str) :
    (step env o configDir file ctx t toks ps).ps.Edge u v ↔
      ps.Edge u v ∨ u = file ∧ ∃ names, AddsNames env o configDir file ctx t toks ps names ∧ v ∈ names := by
  have hc := step_cases env o configDir file ctx t toks ps
  generalize hst : step env o configDir file ctx t toks ps = s at hc
  -- the accepted statements
  have hno : (¬ ∃ args comments term rest, Reads o t toks args comments term rest ∧ mapCtx ctx.vals = none ∧
      contains o.ignoreDirectives t.value = false ∧ analyze file (baseStmt o file t args) term.value ctx.vals o = none ∧ t.value = c!"include") →
      ∀ names, ¬ AddsNames env o configDir file ctx t toks ps names := by
    intro hn names ha
    cases ha with
    | glob args comments term rest _ _ _ h1 h2 h3 h4 _ h5 => exact hn ⟨args, comments, term, rest, h1, h2, h3, h4, h5⟩
    | file args comments term rest _ _ _ h1 h2 h3 h4 _ h5 => exact hn ⟨args, comments, term, rest, h1, h2, h3, h4, h5⟩
  have hsame : s.ps.includeEdges = ps.includeEdges → (¬ ∃ args comments term rest, Reads o t toks args comments term rest ∧ mapCtx ctx.vals = none ∧
      contains o.ignoreDirectives t.value = false ∧ analyze file (baseStmt o file t args) term.value ctx.vals o = none ∧ t.value = c!"include") →
      (s.ps.Edge u v ↔ ps.Edge u v ∨ u = file ∧ ∃ names, AddsNames env o configDir file ctx t toks ps names ∧ v ∈ names) := by
    intro h1 h2
    unfold PS.Edge
    rw [h1]
    constructor
    · exact Or.inl
    · rintro (h | ⟨-, names, h, -⟩)
      · exact h
      · exact absurd h (hno h2 names)
  have hread : ∀ {args comments term rest args' comments' term' rest'}, Reads o t toks args comments term rest →
      Reads o t toks args' comments' term' rest' → args' = args ∧ term' = term := by
    intro _ _ _ _ _ _ _ _ h1 h2
    have := h1.read.symm.trans h2.read
    simp only [Option.some.injEq, Prod.mk.injEq] at this
    exact ⟨this.1.symm, this.2.2.1.symm⟩
  have hincl : ∀ {args comments term rest stmt r ps'}, Reads o t toks args comments term rest → mapCtx ctx.vals = none →
      contains o.ignoreDirectives t.value = false → analyze file (baseStmt o file t args) term.value ctx.vals o = none →
      prepIf (baseStmt o file t args) = some stmt → doInclude env o configDir file ctx stmt ps = (r, ps') →
      (ps'.Edge u v ↔ ps.Edge u v ∨ u = file ∧ ∃ names, AddsNames env o configDir file ctx t toks ps names ∧ v ∈ names) := by
    intro args comments term rest stmt r ps' R h1 h2 h3 h4 h5
    have hr := doInclude_inclR env o configDir file ctx stmt ps
    rw [h5] at hr
    have hdir : stmt.directive = t.value := by rw [prepIf_some h4]; rfl
    have hstmt : t.value = c!"include" → stmt = baseStmt o file t args := by
      intro ht
      rw [prepIf_other (by rw [baseStmt_directive, ht]; decide)] at h4
      exact (Option.some.inj h4).symm
    have hnone : ps'.includeEdges = ps.includeEdges → (∀ names, ¬ AddsNames env o configDir file ctx t toks ps names) →
        (ps'.Edge u v ↔ ps.Edge u v ∨ u = file ∧ ∃ names, AddsNames env o configDir file ctx t toks ps names ∧ v ∈ names) := by
      intro h1 h2
      unfold PS.Edge
      rw [h1]
      constructor
      · exact Or.inl
      · rintro (h | ⟨-, names, h, -⟩)
        · exact h
        · exact absurd h (h2 names)
    cases hr with
    | other hc =>
      refine hnone rfl (fun names ha => ?_)
      rw [hdir] at hc
      cases ha with
      | glob _ _ _ _ _ _ _ _ _ _ _ hs ht => rw [hs, ht] at hc; cases hc
      | file _ _ _ _ _ _ _ _ _ _ _ hs ht => rw [hs, ht] at hc; cases hc
    | noArgs hc hargs =>
      refine hnone rfl (fun names ha => ?_)
      cases ha with
      | glob _ _ _ _ _ _ _ R' _ _ _ hs ht harg =>
        obtain ⟨rfl, rfl⟩ := hread R R'
        rw [hstmt ht] at hargs
        rw [harg] at hargs; cases hargs
      | file _ _ _ _ _ _ _ R' _ _ _ hs ht harg =>
        obtain ⟨rfl, rfl⟩ := hread R R'
        rw [hstmt ht] at hargs
        rw [harg] at hargs; cases hargs
    | globErr a as e hc hargs hm hg =>
      refine hnone rfl (fun names ha => ?_)
      cases ha with
      | glob _ _ _ _ _ _ _ R' _ _ _ hs ht harg _ hg' =>
        obtain ⟨rfl, rfl⟩ := hread R R'
        rw [hstmt ht] at hargs
        rw [harg] at hargs; cases hargs
        rw [hg] at hg'; cases hg'
      | file _ _ _ _ _ _ _ R' _ _ _ hs ht harg hm' =>
        obtain ⟨rfl, rfl⟩ := hread R R'
        rw [hstmt ht] at hargs
        rw [harg] at hargs; cases hargs
        rw [hm] at hm'; cases hm'
    | openBad a as e hc hargs hm hg =>
      refine hnone rfl (fun names ha => ?_)
      cases ha with
      | glob _ _ _ _ _ _ _ R' _ _ _ hs ht harg hm' =>
        obtain ⟨rfl, rfl⟩ := hread R R'
        rw [hstmt ht] at hargs
        rw [harg] at hargs; cases hargs
        rw [hm] at hm'; cases hm'
      | file _ _ _ _ _ _ _ R' _ _ _ hs ht harg hm' hg' =>
        obtain ⟨rfl, rfl⟩ := hread R R'
        rw [hstmt ht] at hargs
        rw [harg] at hargs; cases hargs
        rw [hg] at hg'; cases hg'
    | openFail a as e hc hargs hm hg =>
      refine hnone rfl (fun names ha => ?_)
      cases ha with
      | glob _ _ _ _ _ _ _ R' _ _ _ hs ht harg hm' =>
        obtain ⟨rfl, rfl⟩ := hread R R'
        rw [hstmt ht] at hargs
        rw [harg] at hargs; cases hargs
        rw [hm] at hm'; cases hm'
      | file _ _ _ _ _ _ _ R' _ _ _ hs ht harg hm' hg' =>
        obtain ⟨rfl, rfl⟩ := hread R R'
        rw [hstmt ht] at hargs
        rw [harg] at hargs; cases hargs
        rw [hg] at hg'; cases hg'
    | globOk a as names hc hargs hm hg =>
      rw [hdir] at hc
      simp only [Bool.and_eq_true, Bool.not_eq_true', beq_iff_eq] at hc
      rw [hstmt hc.2] at hargs
      have hA := AddsNames.glob args comments term rest a as names R h1 h2 h3 hc.1 hc.2 hargs hm hg
      unfold PS.Edge
      rw [addIncludes_edges, List.mem_append]
      constructor
      · rintro (h | h)
        · exact Or.inl h
        · split at h
          · rename_i hu; exact Or.inr ⟨hu, _, hA, h⟩
          · cases h
      · rintro (h | ⟨hu, names', hA', h⟩)
        · exact Or.inl h
        · right
          rw [if_pos hu]
          cases hA' with
          | glob _ _ _ _ _ _ _ R' _ _ _ _ _ harg _ hg' =>
            obtain ⟨rfl, rfl⟩ := hread R R'
            simp only [baseStmt] at hargs
            rw [harg] at hargs; cases hargs
            rw [hg] at hg'; cases hg'
            exact h
          | file _ _ _ _ _ _ _ R' _ _ _ _ _ harg hm' =>
            obtain ⟨rfl, rfl⟩ := hread R R'
            simp only [baseStmt] at hargs
            rw [harg] at hargs; cases hargs
            rw [hm] at hm'; cases hm'
    | openOk a as data hc hargs hm hg =>
      rw [hdir] at hc
      simp only [Bool.and_eq_true, Bool.not_eq_true', beq_iff_eq] at hc
      rw [hstmt hc.2] at hargs
      have hA := AddsNames.file args comments term rest a as data R h1 h2 h3 hc.1 hc.2 hargs hm hg
      unfold PS.Edge
      rw [addIncludes_edges, List.mem_append]
      constructor
      · rintro (h | h)
        · exact Or.inl h
        · split at h
          · rename_i hu; exact Or.inr ⟨hu, _, hA, h⟩
          · cases h
      · rintro (h | ⟨hu, names', hA', h⟩)
        · exact Or.inl h
        · right
          rw [if_pos hu]
          cases hA' with
          | glob _ _ _ _ _ _ _ R' _ _ _ _ _ harg hm' hg' =>
            obtain ⟨rfl, rfl⟩ := hread R R'
            simp only [baseStmt] at hargs
            rw [harg] at hargs; cases hargs
            rw [hm] at hm'; cases hm'
          | file _ _ _ _ _ _ _ R' _ _ _ _ _ harg hm' =>
            obtain ⟨rfl, rfl⟩ := hread R R'
            simp only [baseStmt] at hargs
            rw [harg] at hargs; cases hargs
            exact h
  cases hc with
  | tokErr e h => exact hsame rfl (by rintro ⟨_, _, _, _, R, -⟩; rw [R.noErr] at h; cases h)
  | close h1 h2 => exact hsame rfl (by rintro ⟨_, _, _, _, R, -⟩; rw [R.notClose] at h2; cases h2)
  | comment h1 h2 h3 => exact hsame rfl (by rintro ⟨_, _, _, _, R, -⟩; rw [R.notComment] at h3; cases h3)
  | premature h1 h2 h3 h4 => exact hsame rfl (by rintro ⟨_, _, _, _, R, -⟩; rw [R.read] at h4; cases h4)
  | mapFail _ _ _ _ _ _ _ h1 => exact hsame rfl (by rintro ⟨_, _, _, _, R, h, -⟩; rw [h] at h1; cases h1)
  | mapBad _ _ _ _ _ _ _ h1 => exact hsame rfl (by rintro ⟨_, _, _, _, R, h, -⟩; rw [h] at h1; cases h1)
  | mapOk _ _ _ _ _ _ h1 => exact hsame rfl (by rintro ⟨_, _, _, _, R, h, -⟩; rw [h] at h1; cases h1)
  | ignored _ _ _ _ _ _ h1 => exact hsame rfl (by rintro ⟨_, _, _, _, R, _, h, -⟩; rw [h] at h1; cases h1)
  | rejectFail _ _ _ _ _ R _ _ h1 =>
    exact hsame rfl (by rintro ⟨_, _, _, _, R', _, _, h, -⟩; obtain ⟨rfl, rfl⟩ := hread R R'; rw [h] at h1; cases h1)
  | rejectSkip _ _ _ _ _ R _ _ h1 =>
    exact hsame rfl (by rintro ⟨_, _, _, _, R', _, _, h, -⟩; obtain ⟨rfl, rfl⟩ := hread R R'; rw [h] at h1; cases h1)
  | rejectStop _ _ _ _ _ R _ _ h1 =>
    exact hsame rfl (by rintro ⟨_, _, _, _, R', _, _, h, -⟩; obtain ⟨rfl, rfl⟩ := hread R R'; rw [h] at h1; cases h1)
  | reject _ _ _ _ _ R _ _ h1 =>
    exact hsame rfl (by rintro ⟨_, _, _, _, R', _, _, h, -⟩; obtain ⟨rfl, rfl⟩ := hread R R'; rw [h] at h1; cases h1)
  | panic _ _ _ _ R _ _ _ h1 =>
    refine hsame rfl ?_
    rintro ⟨_, _, _, _, R', _, _, _, h⟩
    rw [prepIf_other (by rw [baseStmt_directive, h]; decide)] at h1
    cases h1
  | inclFail _ _ _ _ _ _ _ R h1 h2 h3 h4 h5 => exact hincl R h1 h2 h3 h4 h5
  | simple _ _ _ _ _ _ _ R h1 h2 h3 h4 h5 => exact hincl R h1 h2 h3 h4 h5
  | block _ _ _ _ _ _ _ R h1 h2 h3 h4 h5 => exact hincl R h1 h2 h3 h4 h5

/-- Edges are only added. -/
theorem edge_rel (o : ParseOptions) (file : Str) : StateRel o file (fun a b => ∀ u v, a.Edge u v → b.Edge u v) where
  refl ps u v := id
  trans h1 h2 u v h := h2 u v (h1 u v h)
  err ps e u v := id
  opens ps u v := id
  globs ps u v := id
  add ctx stmt ps f u v h := by
    have := addIncludes_edges file ctx stmt ps [f] u
    change outEdges (addInclude file ctx stmt ps f).2.includeEdges u = _ at this
    unfold PS.Edge
    rw [this]
    exact List.mem_append_left _ h
  enter stmt ctx ps u v := by
    unfold enterBlockCtx
    split
    · exact id
    · split <;> exact id

theorem enter_edge (stmt : Directive) (ctx : Ctx) (ps : PS) (u v : Str) : (enterBlockCtx stmt ctx ps).2.Edge u v ↔ ps.Edge u v := by
  unfold enterBlockCtx
  split
  · exact Iff.rfl
  · split <;> exact Iff.rfl

theorem RunOk.edges {env : Env} {o : ParseOptions} {configDir file : Str} {ctx : Ctx} {toks : List Tok} {ps : PS}
    {ds : List Directive} {toks' : List Tok} {ps' : PS} (h : RunOk env o configDir file ctx toks ps ds toks' ps') (u v : Str) :
    ps'.Edge u v ↔ ps.Edge u v ∨ u = file ∧ ∃ ctx1 t toks1 ps1 names, Visits env o configDir file ctx toks ps ctx1 t toks1 ps1 ∧
      AddsNames env o configDir file ctx1 t toks1 ps1 names ∧ v ∈ names := by
  induction h with
  | eof =>
    constructor
    · exact Or.inl
    · rintro (h | ⟨-, _, _, _, _, _, h, -⟩)
      · exact h
      · cases h
  | stop ctx t toks ps toks' ps' hs =>
    have := step_edges env o configDir file ctx t toks ps u v
    rw [hs] at this
    rw [show ps'.Edge u v ↔ _ from this]
    constructor
    · rintro (h | ⟨hu, names, h1, h2⟩)
      · exact Or.inl h
      · exact Or.inr ⟨hu, _, _, _, _, names, .here .., h1, h2⟩
    · rintro (h | ⟨hu, _, _, _, _, names, hv, h1, h2⟩)
      · exact Or.inl h
      · cases hv with
        | here => exact Or.inr ⟨hu, names, h1, h2⟩
        | next _ _ _ _ _ _ _ _ _ _ _ hs' => rw [hs] at hs'; cases hs'
        | inside _ _ _ _ _ _ _ _ _ _ _ _ hs' => rw [hs] at hs'; cases hs'
        | after _ _ _ _ _ _ _ _ _ _ _ _ _ _ _ hs' => rw [hs] at hs'; cases hs'
  | next ctx t toks ps new toks1 ps1 ds toks' ps' hs hr ih =>
    have := step_edges env o configDir file ctx t toks ps u v
    rw [hs] at this
    rw [ih, show ps1.Edge u v ↔ _ from this]
    constructor
    · rintro ((h | ⟨hu, names, h1, h2⟩) | ⟨hu, _, _, _, _, names, hv, h1, h2⟩)
      · exact Or.inl h
      · exact Or.inr ⟨hu, _, _, _, _, names, .here .., h1, h2⟩
      · exact Or.inr ⟨hu, _, _, _, _, names, .next _ _ _ _ _ _ _ _ _ _ _ hs hv, h1, h2⟩
    · rintro (h | ⟨hu, _, _, _, _, names, hv, h1, h2⟩)
      · exact Or.inl (Or.inl h)
      · cases hv with
        | here => exact Or.inl (Or.inr ⟨hu, names, h1, h2⟩)
        | next _ _ _ _ _ _ _ _ _ _ _ hs' hv => rw [hs] at hs'; cases hs'; exact Or.inr ⟨hu, _, _, _, _, names, hv, h1, h2⟩
        | inside _ _ _ _ _ _ _ _ _ _ _ _ hs' => rw [hs] at hs'; cases hs'
        | after _ _ _ _ _ _ _ _ _ _ _ _ _ _ _ hs' => rw [hs] at hs'; cases hs'
  | block ctx t toks ps stmt comments toks1 ps1 b toks2 ps2 ds toks' ps' hs hr1 hr2 ih1 ih2 =>
    have := step_edges env o configDir file ctx t toks ps u v
    rw [hs] at this
    rw [ih2, ih1, enter_edge, show ps1.Edge u v ↔ _ from this]
    constructor
    · rintro (((h | ⟨hu, names, h1, h2⟩) | ⟨hu, _, _, _, _, names, hv, h1, h2⟩) | ⟨hu, _, _, _, _, names, hv, h1, h2⟩)
      · exact Or.inl h
      · exact Or.inr ⟨hu, _, _, _, _, names, .here .., h1, h2⟩
      · exact Or.inr ⟨hu, _, _, _, _, names, .inside _ _ _ _ _ _ _ _ _ _ _ _ hs hv, h1, h2⟩
      · exact Or.inr ⟨hu, _, _, _, _, names, .after _ _ _ _ _ _ _ _ _ _ _ _ _ _ _ hs hr1 hv, h1, h2⟩
    · rintro (h | ⟨hu, _, _, _, _, names, hv, h1, h2⟩)
      · exact Or.inl (Or.inl (Or.inl h))
      · cases hv with
        | here => exact Or.inl (Or.inl (Or.inr ⟨hu, names, h1, h2⟩))
        | next _ _ _ _ _ _ _ _ _ _ _ hs' hv => rw [hs] at hs'; cases hs'
        | inside _ _ _ _ _ _ _ _ _ _ _ _ hs' hv =>
          rw [hs] at hs'; cases hs'; exact Or.inl (Or.inr ⟨hu, _, _, _, _, names, hv, h1, h2⟩)
        | after _ _ _ _ _ _ _ _ _ _ _ _ _ _ _ hs' hr1' hv =>
          rw [hs] at hs'; cases hs'
          obtain ⟨-, rfl, rfl⟩ := hr1.det hr1'
          exact Or.inr ⟨hu, _, _, _, _, names, hv, h1, h2⟩

theorem RunFail.edges {env : Env} {o : ParseOptions} {configDir file : Str} {ctx : Ctx} {toks : List Tok} {ps : PS}
    {e : Option GoErr} {toks' : List Tok} {ps' : PS} (h : RunFail env o configDir file ctx toks ps e toks' ps') (u v : Str) :
    ps'.Edge u v ↔ ps.Edge u v ∨ u = file ∧ ∃ ctx1 t toks1 ps1 names, Visits env o configDir file ctx toks ps ctx1 t toks1 ps1 ∧
      AddsNames env o configDir file ctx1 t toks1 ps1 names ∧ v ∈ names := by
  induction h with
  | fail ctx t toks ps e toks' ps' hs =>
    have := step_edges env o configDir file ctx t toks ps u v
    rw [hs] at this
    rw [show ps'.Edge u v ↔ _ from this]
    constructor
    · rintro (h | ⟨hu, names, h1, h2⟩)
      · exact Or.inl h
      · exact Or.inr ⟨hu, _, _, _, _, names, .here .., h1, h2⟩
    · rintro (h | ⟨hu, _, _, _, _, names, hv, h1, h2⟩)
      · exact Or.inl h
      · cases hv with
        | here => exact Or.inr ⟨hu, names, h1, h2⟩
        | next _ _ _ _ _ _ _ _ _ _ _ hs' => rw [hs] at hs'; cases hs'
        | inside _ _ _ _ _ _ _ _ _ _ _ _ hs' => rw [hs] at hs'; cases hs'
        | after _ _ _ _ _ _ _ _ _ _ _ _ _ _ _ hs' => rw [hs] at hs'; cases hs'
  | next ctx t toks ps new toks1 ps1 e toks' ps' hs hr ih =>
    have := step_edges env o configDir file ctx t toks ps u v
    rw [hs] at this
    rw [ih, show ps1.Edge u v ↔ _ from this]
    constructor
    · rintro ((h | ⟨hu, names, h1, h2⟩) | ⟨hu, _, _, _, _, names, hv, h1, h2⟩)
      · exact Or.inl h
      · exact Or.inr ⟨hu, _, _, _, _, names, .here .., h1, h2⟩
      · exact Or.inr ⟨hu, _, _, _, _, names, .next _ _ _ _ _ _ _ _ _ _ _ hs hv, h1, h2⟩
    · rintro (h | ⟨hu, _, _, _, _, names, hv, h1, h2⟩)
      · exact Or.inl (Or.inl h)
      · cases hv with
        | here => exact Or.inl (Or.inr ⟨hu, names, h1, h2⟩)
        | next _ _ _ _ _ _ _ _ _ _ _ hs' hv => rw [hs] at hs'; cases hs'; exact Or.inr ⟨hu, _, _, _, _, names, hv, h1, h2⟩
        | inside _ _ _ _ _ _ _ _ _ _ _ _ hs' => rw [hs] at hs'; cases hs'
        | after _ _ _ _ _ _ _ _ _ _ _ _ _ _ _ hs' => rw [hs] at hs'; cases hs'
  | inside ctx t toks ps stmt comments toks1 ps1 e toks' ps' hs hr ih =>
    have := step_edges env o configDir file ctx t toks ps u v
    rw [hs] at this
    rw [ih, enter_edge, show ps1.Edge u v ↔ _ from this]
    constructor
    · rintro ((h | ⟨hu, names, h1, h2⟩) | ⟨hu, _, _, _, _, names, hv, h1, h2⟩)
      · exact Or.inl h
      · exact Or.inr ⟨hu, _, _, _, _, names, .here .., h1, h2⟩
      · exact Or.inr ⟨hu, _, _, _, _, names, .inside _ _ _ _ _ _ _ _ _ _ _ _ hs hv, h1, h2⟩
    · rintro (h | ⟨hu, _, _, _, _, names, hv, h1, h2⟩)
      · exact Or.inl (Or.inl h)
      · cases hv with
        | here => exact Or.inl (Or.inr ⟨hu, names, h1, h2⟩)
        | next _ _ _ _ _ _ _ _ _ _ _ hs' hv => rw [hs] at hs'; cases hs'
        | inside _ _ _ _ _ _ _ _ _ _ _ _ hs' hv =>
          rw [hs] at hs'; cases hs'; exact Or.inr ⟨hu, _, _, _, _, names, hv, h1, h2⟩
        | after _ _ _ _ _ _ _ _ _ _ _ _ _ _ _ hs' hr1' hv =>
          rw [hs] at hs'; cases hs'
          exact absurd hr (fun h => hr1'.not_fail h)
  | after ctx t toks ps stmt comments toks1 ps1 b toks2 ps2 e toks' ps' hs hr1 hr2 ih =>
    have := step_edges env o configDir file ctx t toks ps u v
    rw [hs] at this
    rw [ih, hr1.edges, enter_edge, show ps1.Edge u v ↔ _ from this]
    constructor
    · rintro (((h | ⟨hu, names, h1, h2⟩) | ⟨hu, _, _, _, _, names, hv, h1, h2⟩) | ⟨hu, _, _, _, _, names, hv, h1, h2⟩)
      · exact Or.inl h
      · exact Or.inr ⟨hu, _, _, _, _, names, .here .., h1, h2⟩
      · exact Or.inr ⟨hu, _, _, _, _, names, .inside _ _ _ _ _ _ _ _ _ _ _ _ hs hv, h1, h2⟩
      · exact Or.inr ⟨hu, _, _, _, _, names, .after _ _ _ _ _ _ _ _ _ _ _ _ _ _ _ hs hr1 hv, h1, h2⟩
    · rintro (h | ⟨hu, _, _, _, _, names, hv, h1, h2⟩)
      · exact Or.inl (Or.inl (Or.inl h))
      · cases hv with
        | here => exact Or.inl (Or.inl (Or.inr ⟨hu, names, h1, h2⟩))
        | next _ _ _ _ _ _ _ _ _ _ _ hs' hv => rw [hs] at hs'; cases hs'
        | inside _ _ _ _ _ _ _ _ _ _ _ _ hs' hv =>
          rw [hs] at hs'; cases hs'; exact Or.inl (Or.inr ⟨hu, _, _, _, _, names, hv, h1, h2⟩)
        | after _ _ _ _ _ _ _ _ _ _ _ _ _ _ _ hs' hr1' hv =>
          rw [hs] at hs'; cases hs'
          obtain ⟨-, rfl, rfl⟩ := hr1.det hr1'
          exact Or.inr ⟨hu, _, _, _, _, names, hv, h1, h2⟩

/-- While the worklist is processed, file `u` is found to include file `v`. -/
def FileIncludes (env : Env) (o : ParseOptions) (configDir : Str) (ps : PS) (u v : Str) : Prop :=
  ∃ ctx t toks ps1 names, FilesVisits env o configDir ps u ctx t toks ps1 ∧ AddsNames env o configDir u ctx t toks ps1 names ∧ v ∈ names

theorem FilesOk.edges {env : Env} {o : ParseOptions} {configDir : Str} {ps ps' : PS} {cs : List Config}
    (h : FilesOk env o configDir ps cs ps') (u v : Str) : ps'.Edge u v ↔ ps.Edge u v ∨ FileIncludes env o configDir ps u v := by
  induction h with
  | nil ps hi =>
    constructor
    · exact Or.inl
    · rintro (h | ⟨_, _, _, _, _, h, -⟩)
      · exact h
      · cases h with
        | here _ _ _ _ _ _ _ _ hi' => rw [hi] at hi'; cases hi'
        | ok _ _ _ _ _ _ _ _ _ _ _ _ hi' => rw [hi] at hi'; cases hi'
        | bad _ _ _ _ _ _ _ _ _ _ _ _ hi' => rw [hi] at hi'; cases hi'
  | ok ps incl rest data ds toks' ps1 cs ps' hi ho hr hf ih =>
    rw [ih, hr.edges]
    constructor
    · rintro ((h | ⟨rfl, ctx, t, toks, ps2, names, hv, h1, h2⟩) | ⟨ctx, t, toks, ps2, names, hv, h1, h2⟩)
      · exact Or.inl h
      · exact Or.inr ⟨ctx, t, toks, ps2, names, .here _ _ _ _ _ _ _ _ hi ho hv, h1, h2⟩
      · exact Or.inr ⟨ctx, t, toks, ps2, names, .ok _ _ _ _ _ _ _ _ _ _ _ _ hi ho hr hv, h1, h2⟩
    · rintro (h | ⟨ctx, t, toks, ps2, names, hv, h1, h2⟩)
      · exact Or.inl (Or.inl h)
      · cases hv with
        | here _ _ _ _ _ _ _ _ hi' ho' hv =>
          rw [hi] at hi'; cases hi'; rw [ho] at ho'; cases ho'
          exact Or.inl (Or.inr ⟨rfl, ctx, t, toks, ps2, names, hv, h1, h2⟩)
        | ok _ _ _ _ _ _ _ _ _ _ _ _ hi' ho' hr' hv =>
          rw [hi] at hi'; cases hi'; rw [ho] at ho'; cases ho'
          obtain ⟨-, -, rfl⟩ := hr.det hr'
          exact Or.inr ⟨ctx, t, toks, ps2, names, hv, h1, h2⟩
        | bad _ _ _ _ _ _ _ _ _ _ _ _ hi' ho' hr' =>
          rw [hi] at hi'; cases hi'; rw [ho] at ho'; cases ho'
          exact absurd hr' (fun h => hr.not_fail h)
  | bad ps incl rest data e toks' ps1 cs ps' hi ho hr hs hf ih =>
    rw [ih, show (handleError o incl.path ps1 e).Edge u v ↔ ps1.Edge u v from Iff.rfl, hr.edges]
    constructor
    · rintro ((h | ⟨rfl, ctx, t, toks, ps2, names, hv, h1, h2⟩) | ⟨ctx, t, toks, ps2, names, hv, h1, h2⟩)
      · exact Or.inl h
      · exact Or.inr ⟨ctx, t, toks, ps2, names, .here _ _ _ _ _ _ _ _ hi ho hv, h1, h2⟩
      · exact Or.inr ⟨ctx, t, toks, ps2, names, .bad _ _ _ _ _ _ _ _ _ _ _ _ hi ho hr hs hv, h1, h2⟩
    · rintro (h | ⟨ctx, t, toks, ps2, names, hv, h1, h2⟩)
      · exact Or.inl (Or.inl h)
      · cases hv with
        | here _ _ _ _ _ _ _ _ hi' ho' hv =>
          rw [hi] at hi'; cases hi'; rw [ho] at ho'; cases ho'
          exact Or.inl (Or.inr ⟨rfl, ctx, t, toks, ps2, names, hv, h1, h2⟩)
        | ok _ _ _ _ _ _ _ _ _ _ _ _ hi' ho' hr' hv =>
          rw [hi] at hi'; cases hi'; rw [ho] at ho'; cases ho'
          exact absurd hr (fun h => hr'.not_fail h)
        | bad _ _ _ _ _ _ _ _ _ _ _ _ hi' ho' hr' _ hv =>
          rw [hi] at hi'; cases hi'; rw [ho] at ho'; cases ho'
          obtain ⟨he, -, rfl⟩ := hr.det hr'
          cases he
          exact Or.inr ⟨ctx, t, toks, ps2, names, hv, h1, h2⟩

end Verif
