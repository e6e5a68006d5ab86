import Verif.Proofs.Alone
import Verif.Props.Errors
import Verif.Props.Context
import Verif.Props.Ex
/-!
# C94: the main file of a configuration, read alone
-/
namespace Verif
open Spec

theorem isAcyclic_alone {env : Env} (hperm : ∀ l, (env.mapOrder l).Perm l) {ps : PS} {f : Str} (h1 : ps.includeEdges = []) (h2 : ps.includeInDegree = [(f, 0)]) : isAcyclic env ps = false := by
  unfold isAcyclic
  have hm : env.mapOrder [f] = [f] := List.perm_singleton.mp (hperm [f])
  simp [h1, h2, hm, kahnLoop, kahnEdges]

/-- One file with SingleFile, from its run. -/
theorem Parse_alone {env : Env} (hperm : ∀ l, (env.mapOrder l).Perm l) {o : ParseOptions} {filename : Str} {c : Config} {ps' : PS}
    (h : FilesOk env { o with singleFile := true } (env.dir filename) (initPS filename) [c] ps') (hc : o.combineConfigs = false) (h1 : ps'.includeEdges = [])
    (h2 : ps'.includeInDegree = [(filename, 0)]) {fuel : Nat} (hf : 2 ≤ fuel) :
    Parse env fuel filename { o with singleFile := true } = .ok (rawPayload ps' [c]) := by
  unfold Parse
  rw [h.parseFiles_eq fuel (show 1 < fuel from hf) []]
  simp only [isAcyclic_alone hperm h1 h2, hc]
  rfl

/-- C94.  Let Parse give a payload (not combined).  The reading of the main file was ended by a fault of an include directive in it, or SingleFile gives the same config for the main file:
the same directives but for `Includes`, and the same errors but for those about files to include that cannot be opened; and its payload is about this config. -/
theorem C94_first {env : Env} (hperm : ∀ l, (env.mapOrder l).Perm l) {fuel : Nat} {filename : Str} {o : ParseOptions} {p : Payload} (hc : o.combineConfigs = false)
    (h : Parse env fuel filename o = .ok p) :
    ∃ c rest, p.config = c :: rest ∧ c.file = filename ∧
      ((c.parsed = [] ∧ ∃ e, c.errors.getLast? = some e ∧ IncludeFault env e.error) ∨
       ∃ p' c', (∀ fuel', 2 ≤ fuel' → Parse env fuel' filename { o with singleFile := true } = .ok p') ∧ p'.config = [c'] ∧ c'.file = filename ∧
        c'.parsed = unlinkedList c.parsed ∧ Without (fun e => NotOpened env e.error) c.errors c'.errors ∧
        c'.status = (if c'.errors = [] then c!"ok" else c!"failed") ∧ p'.status = c'.status ∧
        p'.errors.map (fun e => (e.file, e.line, e.error)) = c'.errors.map (fun e => (filename, e.line, e.error))) := by
  obtain ⟨cs, ps', h1, -, h3, -⟩ := Parse_ok h
  have hp := h3 hc
  subst hp
  have start : PSS env filename (startFile (initPS filename) []) (startFile (initPS filename) []) := ⟨.nil, rfl, rfl, rfl, rfl, rfl, rfl⟩
  cases h1 with
  | nil => exact absurd ‹(initPS filename).includes = []› (by simp [initPS])
  | ok _ incl rest data ds toks' ps1 cs _ hi hop hr hf =>
    cases hi
    refine ⟨_, cs, rfl, rfl, .inr ?_⟩
    obtain ⟨b', k1, k2⟩ := hr.alone (configDir' := env.dir filename) ⟨rfl, rfl⟩ start
    have hF := FilesOk.ok (o := { o with singleFile := true }) (configDir := env.dir filename) (initPS filename) _ [] data _ toks' b' [] b' rfl hop k1 (.nil b' k2.none)
    exact ⟨_, _, fun fuel' hf => Parse_alone hperm hF hc k2.edges k2.deg hf, rfl, rfl, rfl, k2.errs, k2.status.1, k2.status.2, k2.pay⟩
  | bad _ incl rest data e toks' ps1 cs _ hi hop hr hs hf =>
    cases hi
    refine ⟨_, cs, rfl, rfl, ?_⟩
    rcases hr.alone (configDir' := env.dir filename) ⟨rfl, rfl⟩ start with ⟨x, hx, k⟩ | ⟨b', k1, k2⟩
    · cases hx
      refine .inl ⟨rfl, ⟨e.line?, e⟩, ?_, k⟩
      simp [fileConfig, handleError]
    · have k3 := k2.handleError o { o with singleFile := true } e
      have hF := FilesOk.bad (o := { o with singleFile := true }) (configDir := env.dir filename) (initPS filename) _ [] data e toks' b' [] _ rfl hop k1 hs (.nil _ k3.none)
      exact .inr ⟨_, _, fun fuel' hf => Parse_alone hperm hF hc k3.edges k3.deg hf, rfl, rfl, rfl, k3.errs, k3.status.1, k3.status.2, k3.pay⟩

/-- C94.  If the whole configuration has no errors, then SingleFile gives just its first config, without `Includes`. -/
theorem C94_no_errors {env : Env} (hperm : ∀ l, (env.mapOrder l).Perm l) {fuel : Nat} {filename : Str} {o : ParseOptions} {p : Payload} (hc : o.combineConfigs = false)
    (h : Parse env fuel filename o = .ok p) (he : p.errors = []) :
    ∃ c rest, p.config = c :: rest ∧
      ∀ fuel', 2 ≤ fuel' → Parse env fuel' filename { o with singleFile := true } = .ok ⟨c!"ok", [], [⟨filename, c!"ok", [], unlinkedList c.parsed⟩]⟩ := by
  obtain ⟨c, rest, h1, h2, h3⟩ := C94_first hperm hc h
  refine ⟨c, rest, h1, ?_⟩
  have hce : c.errors = [] := by
    have hm := C17_errors h hc
    rw [he, h1, List.flatMap_cons] at hm
    simpa using (List.append_eq_nil_iff.mp hm.symm).1
  rcases h3 with ⟨-, e, h4, -⟩ | ⟨p', c', h4, h5, h6, h7, h8, h9, h10, h11⟩
  · rw [hce] at h4; cases h4
  · rw [hce] at h8
    have hce' : c'.errors = [] := by generalize c'.errors = l at h8; cases h8; rfl
    rw [hce'] at h9 h11
    obtain ⟨st, es, cfg⟩ := p'
    obtain ⟨f, s, e, d⟩ := c'
    simp only at h5 h6 h7 h9 h10 h11 hce'
    subst h5 h6 h7 hce'
    simp only [if_true] at h9
    subst h9 h10
    have : es = [] := by simpa using h11
    subst this
    exact h4

/-! ## Every file -/

theorem addIncludes_some (file : Str) (ctx : Ctx) (names : List Str) : ∀ (stmt : Directive) (ps : PS), stmt.includes ≠ none ∨ names ≠ [] →
    (addIncludes file ctx stmt ps names).1.includes ≠ none := by
  induction names with
  | nil => intro stmt ps h; rcases h with h | h; exacts [h, absurd rfl h]
  | cons n ns ih =>
    intro stmt ps h
    rw [addIncludes]
    exact ih _ _ (.inl (by unfold addInclude; simp))

theorem doInclude_quiet {env : Env} {o : ParseOptions} {configDir file : Str} {ctx : Ctx} {stmt stmt' : Directive} {ps ps' : PS}
    (h : doInclude env o configDir file ctx stmt ps = (.ok stmt', ps')) (hi : stmt'.includes = none) : ps'.includes = ps.includes := by
  have hr := doInclude_inclR env o configDir file ctx stmt ps
  rw [h] at hr
  generalize hx : (Res.ok stmt', ps') = x at hr
  cases hr with
  | other => cases hx; rfl
  | noArgs => cases hx
  | globErr => cases hx
  | globOk a as names =>
    cases hx
    have hn : sortStrings names = [] := by
      by_contra hn
      exact addIncludes_some file ctx _ stmt _ (.inr hn) hi
    rw [hn]
    rfl
  | openBad => cases hx; rfl
  | openFail => cases hx
  | openOk => cases hx; exact absurd hi (addIncludes_some file ctx _ stmt _ (.inr (by simp)))

theorem step_quiet {env : Env} {o : ParseOptions} {configDir file : Str} {ctx : Ctx} {t : Tok} {toks : List Tok} {ps : PS} :
    (∀ toks' ps', step env o configDir file ctx t toks ps = .stop toks' ps' → ps'.includes = ps.includes) ∧
    (∀ new toks' ps', step env o configDir file ctx t toks ps = .next new toks' ps' → (∀ d ∈ new, d.includes = none) → ps'.includes = ps.includes) ∧
    ∀ stmt comments toks' ps', step env o configDir file ctx t toks ps = .block stmt comments toks' ps' → stmt.includes = none → ps'.includes = ps.includes := by
  have hS := step_cases env o configDir file ctx t toks ps
  generalize step env o configDir file ctx t toks ps = s at hS
  refine ⟨?_, ?_, ?_⟩
  · intro toks' ps' hs
    cases hS <;> cases hs <;> rfl
  · intro new toks' ps' hs hd
    cases hS with
    | simple args comments term rest stmt stmt' ps1 h1 h2 h3 h4 h5 h6 h7 => cases hs; exact doInclude_quiet h6 (hd stmt' (by simp))
    | _ => cases hs <;> rfl
  · intro stmt comments toks' ps' hs hd
    cases hS with
    | block args comments term rest stmt stmt' ps1 h1 h2 h3 h4 h5 h6 h7 => cases hs; exact doInclude_quiet h6 hd
    | _ => cases hs

/-- The files still to be read are to be read as the main file. -/
def AllTop (ps : PS) : Prop := ∀ f ∈ ps.includes, f.ctx.vals = [] ∧ f.ctx.cap = 0

theorem AllTop.enter {ps : PS} (h : AllTop ps) (stmt : Directive) (ctx : Ctx) : AllTop (enterBlockCtx stmt ctx ps).2 := by
  unfold enterBlockCtx
  split
  · exact h
  · split
    · intro f hf
      obtain ⟨g, hg, rfl⟩ := List.mem_map.mp hf
      obtain ⟨h1, h2⟩ := h g hg
      simp only [Ctx.writeShared]
      split
      · exact ⟨by simp [h1], h2⟩
      · exact ⟨h1, h2⟩
    · exact h

theorem AllTop.of_eq {ps ps' : PS} (h : AllTop ps) (e : ps'.includes = ps.includes) : AllTop ps' := by unfold AllTop; rw [e]; exact h

theorem RunOk.quiet {env : Env} {o : ParseOptions} {configDir file : Str} {ctx : Ctx} {toks : List Tok} {ps : PS} {ds : List Directive} {toks' : List Tok} {ps' : PS}
    (hr : RunOk env o configDir file ctx toks ps ds toks' ps') : (∀ d, Within d ds → d.includes = none) → AllTop ps → AllTop ps' := by
  induction hr with
  | eof => intro _ h; exact h
  | stop ctx t toks ps toks' ps' hs => intro _ h; exact h.of_eq (step_quiet.1 _ _ hs)
  | next ctx t toks ps new toks1 ps1 ds toks' ps' hs _ ih =>
    intro hd h
    refine ih (fun d hw => hd d ?_) (h.of_eq (step_quiet.2.1 _ _ _ hs fun d hm => hd d (.here (List.mem_append_left _ hm))))
    cases hw with
    | here h1 => exact .here (List.mem_append_right _ h1)
    | deep h1 h2 h3 => exact .deep (List.mem_append_right _ h1) h2 h3
  | block ctx t toks ps stmt comments toks1 ps1 b toks2 ps2 ds toks' ps' hs _ _ ih1 ih2 =>
    intro hd h
    have h1 := h.of_eq (step_quiet.2.2 _ _ _ _ hs (hd { stmt with block := some b } (.here (List.mem_cons_self ..))))
    have h2 := ih1 (fun d hw => hd d (.deep (List.mem_cons_self ..) rfl hw)) (h1.enter stmt ctx)
    refine ih2 (fun d hw => hd d ?_) h2
    cases hw with
    | here h1 => exact .here (List.mem_cons_of_mem _ (List.mem_append_right _ h1))
    | deep h1 h2 h3 => exact .deep (List.mem_cons_of_mem _ (List.mem_append_right _ h1)) h2 h3

theorem AllTop.step {env : Env} {o : ParseOptions} {configDir file : Str} {ctx : Ctx} {t : Tok} {toks : List Tok} {ps : PS} (h : AllTop ps) (hc : ctx.vals = [] ∧ ctx.cap = 0) :
    AllTop (step env o configDir file ctx t toks ps).ps := by
  obtain ⟨-, new, h1, h2⟩ := step_new env o configDir file ctx t toks ps
  intro f hf
  rw [h1] at hf
  rcases List.mem_append.mp hf with hf | hf
  · exact h f hf
  · rw [(h2 f hf).1]; exact hc

theorem RunOk.top {env : Env} {o : ParseOptions} {configDir file : Str} {ctx : Ctx} {toks : List Tok} {ps : PS} {ds : List Directive} {toks' : List Tok} {ps' : PS}
    (hr : RunOk env o configDir file ctx toks ps ds toks' ps') : ctx.vals = [] ∧ ctx.cap = 0 → IncludesOnTop ds → AllTop ps → AllTop ps' := by
  induction hr with
  | eof => intro _ _ h; exact h
  | stop ctx t toks ps toks' ps' hs => intro _ _ h; exact h.of_eq (step_quiet.1 _ _ hs)
  | next ctx t toks ps new toks1 ps1 ds toks' ps' hs _ ih =>
    intro hc hd h
    have h1 := h.step (env := env) (o := o) (configDir := configDir) (file := file) (t := t) (toks := toks) hc
    rw [hs] at h1
    exact ih hc (fun x hx => hd x (List.mem_append_right _ hx)) h1
  | block ctx t toks ps stmt comments toks1 ps1 b toks2 ps2 ds toks' ps' hs hb _ _ ih2 =>
    intro hc hd h
    have h1 := h.step (env := env) (o := o) (configDir := configDir) (file := file) (t := t) (toks := toks) hc
    rw [hs] at h1
    have h2 := hb.quiet (hd _ (List.mem_cons_self ..) b rfl) (AllTop.enter h1 stmt ctx)
    exact ih2 hc (fun x hx => hd x (List.mem_cons_of_mem _ (List.mem_append_right _ hx))) h2

theorem FilesOk.each {env : Env} {o : ParseOptions} {configDir : Str} {ps ps' : PS} {cs : List Config} (h : FilesOk env o configDir ps cs ps')
    (hperm : ∀ l, (env.mapOrder l).Perm l) (hc : o.combineConfigs = false) (hstable : ∀ n f, env.openFile n f = env.openFile 0 f) :
    AllTop ps → (∀ c ∈ cs, c.errors = []) → (∀ c ∈ cs, IncludesOnTop c.parsed) → ∀ c ∈ cs, ∀ fuel, 2 ≤ fuel →
      Parse env fuel c.file { o with singleFile := true } = .ok ⟨c!"ok", [], [⟨c.file, c!"ok", [], unlinkedList c.parsed⟩]⟩ := by
  induction h with
  | nil => intro _ _ _ c hc; cases hc
  | bad ps incl rest data e toks' ps1 cs ps' hi hop hr hs hf ih =>
    intro _ he
    have := he _ (List.mem_cons_self ..)
    simp [fileConfig, handleError] at this
  | ok ps incl rest data ds toks' ps1 cs ps' hi hop hr hf ih =>
    intro ht he hd c hm fuel hfuel
    have htop : incl.ctx.vals = [] ∧ incl.ctx.cap = 0 := ht incl (by rw [hi]; exact List.mem_cons_self ..)
    rcases List.mem_cons.mp hm with rfl | hm
    · have start : PSS env incl.path (startFile ps rest) (startFile (initPS incl.path) []) := ⟨.nil, rfl, rfl, rfl, rfl, rfl, rfl⟩
      obtain ⟨b', k1, k2⟩ := hr.alone (configDir' := env.dir incl.path) (ctx' := ⟨[], 0, 0⟩) ⟨htop.1.symm, htop.2.symm⟩ start
      have hF := FilesOk.ok (o := { o with singleFile := true }) (configDir := env.dir incl.path) (initPS incl.path) _ [] data _ toks' b' [] b' rfl
        ((hstable 0 _).symm ▸ (hstable ps.opens incl.path) ▸ hop) k1 (.nil b' k2.none)
      have hp := Parse_alone hperm hF hc k2.edges k2.deg hfuel
      have he1 : ps1.cfgErrors = [] := he _ (List.mem_cons_self ..)
      have he2 : b'.cfgErrors = [] := by
        have := k2.errs
        rw [he1] at this
        generalize b'.cfgErrors = l at this
        cases this; rfl
      have hs := k2.status
      rw [he2] at hs
      simp only [if_true] at hs
      have hpe : b'.payErrors = [] := by
        have := k2.pay
        rw [he2] at this
        simpa using this
      rw [show (fileConfig incl.path ps1 ds).file = incl.path from rfl, hp]
      simp only [rawPayload, fileConfig, hs.1, hs.2, he2, hpe]
    · exact ih (hr.top htop (hd _ (List.mem_cons_self ..)) (fun f hf => ht f (by rw [hi]; exact List.mem_cons_of_mem _ hf)))
        (fun c hc => he c (List.mem_cons_of_mem _ hc)) (fun c hc => hd c (List.mem_cons_of_mem _ hc)) c hm fuel hfuel

/-- C94.  In a configuration without errors, and without include directives in blocks, every config of the payload is the one that SingleFile gives for its file, up to `Includes`. -/
theorem C94_every {env : Env} (hperm : ∀ l, (env.mapOrder l).Perm l) (hstable : ∀ n f, env.openFile n f = env.openFile 0 f) {fuel : Nat} {filename : Str} {o : ParseOptions}
    {p : Payload} (hc : o.combineConfigs = false) (h : Parse env fuel filename o = .ok p) (he : p.errors = []) (hd : ∀ c ∈ p.config, IncludesOnTop c.parsed)
    {c : Config} (hm : c ∈ p.config) {fuel' : Nat} (hf : 2 ≤ fuel') :
    Parse env fuel' c.file { o with singleFile := true } = .ok ⟨c!"ok", [], [⟨c.file, c!"ok", [], unlinkedList c.parsed⟩]⟩ := by
  have hce : ∀ c ∈ p.config, c.errors = [] := by
    intro c hm
    have hm' := C17_errors h hc
    rw [he] at hm'
    have := List.flatMap_eq_nil_iff.mp hm'.symm c hm
    simpa using this
  obtain ⟨cs, ps', h1, -, h3, -⟩ := Parse_ok h
  obtain rfl := h3 hc
  refine h1.each hperm hc hstable ?_ hce hd c hm fuel' hf
  intro f hf
  simp only [initPS, List.mem_singleton] at hf
  subst hf
  exact ⟨rfl, rfl⟩

/-- C94_every needs its condition: a file that is included in a block cannot be read alone. -/
theorem C94_false : ∃ (env : Env) (o : ParseOptions) (p p' : Payload), (∀ l, (env.mapOrder l).Perm l) ∧ (∀ n f, env.openFile n f = env.openFile 0 f) ∧ o.combineConfigs = false ∧
    Parse env 4 c!"/a" o = .ok p ∧ p.errors = [] ∧ p.config.map (·.file) = [c!"/a", c!"/b"] ∧ Parse env 4 c!"/b" { o with singleFile := true } = .ok p' ∧ p'.errors ≠ [] := by
  exact ⟨exEnv [(c!"/a", c!"http{include /b;}"), (c!"/b", c!"server{}")], exOpts,
    okPayload [(c!"/a", [blk c!"http" 1 [] [incl 1 c!"/b" [1]]]), (c!"/b", [blk c!"server" 1 [] []])],
    ⟨c!"failed", [⟨c!"/b", some 1, serr c!"\"server\" directive is not allowed here" c!"/b" 1 c!"server " c!"main", none⟩],
      [⟨c!"/b", c!"failed", [⟨some 1, serr c!"\"server\" directive is not allowed here" c!"/b" 1 c!"server " c!"main"⟩], []⟩]⟩,
    fun l => .refl _, fun _ _ => rfl, rfl, by decide +kernel, rfl, rfl, by decide +kernel, by simp⟩

/-- The main file of a configuration of two files, alone. -/
example : Parse (exEnv [(c!"/a", c!"include /b;user a;"), (c!"/b", c!"http{\nserver{}}")]) 2 c!"/a" { exOpts with singleFile := true } =
    .ok (okPayload [(c!"/a", [dir c!"include" 1 [c!"/b"], dir c!"user" 1 [c!"a"]])]) := by decide +kernel

/-- The second file of it, by C94_every. -/
example : Parse (exEnv [(c!"/a", c!"include /b;user a;"), (c!"/b", c!"http{\nserver{}}")]) 2 c!"/b" { exOpts with singleFile := true } =
    .ok (okPayload [(c!"/b", [blk c!"http" 1 [] [blk c!"server" 2 [] []]])]) := by
  refine C94_every (fuel := 3) (filename := c!"/a") (o := exOpts)
    (p := okPayload [(c!"/a", [incl 1 c!"/b" [1], dir c!"user" 1 [c!"a"]]), (c!"/b", [blk c!"http" 1 [] [blk c!"server" 2 [] []]])])
    (c := ⟨c!"/b", c!"ok", [], [blk c!"http" 1 [] [blk c!"server" 2 [] []]]⟩) (fun l => .refl _) (fun _ _ => rfl) rfl (by decide +kernel) rfl ?_ (by simp [okPayload]) (by decide)
  intro c hc x hx b hb d hd
  simp only [okPayload, List.map_cons, List.map_nil, List.mem_cons, List.not_mem_nil, or_false] at hc
  rcases hc with rfl | rfl
  · simp only [List.mem_cons, List.not_mem_nil, or_false] at hx
    rcases hx with rfl | rfl <;> cases hb
  · simp only [List.mem_cons, List.not_mem_nil, or_false] at hx
    subst hx
    cases hb
    cases hd with
    | here h => simp only [List.mem_cons, List.not_mem_nil, or_false] at h; subst h; rfl
    | deep h h1 h2 =>
      simp only [List.mem_cons, List.not_mem_nil, or_false] at h
      subst h
      cases h1
      cases h2 with
      | here h => cases h
      | deep h => cases h

/-- A file to include that is missing: an error of the whole configuration, and none of the file alone. -/
example : Parse (exEnv [(c!"/a", c!"include /b;user a;")]) 3 c!"/a" exOpts =
      .ok ⟨c!"failed", [⟨c!"/a", some 1, serr c!"open /b: no such file or directory" c!"/a" 1 c!"include /b" c!"main", none⟩],
        [⟨c!"/a", c!"failed", [⟨some 1, serr c!"open /b: no such file or directory" c!"/a" 1 c!"include /b" c!"main"⟩], [dir c!"include" 1 [c!"/b"], dir c!"user" 1 [c!"a"]]⟩]⟩ ∧
    Parse (exEnv [(c!"/a", c!"include /b;user a;")]) 3 c!"/a" { exOpts with singleFile := true } = .ok (okPayload [(c!"/a", [dir c!"include" 1 [c!"/b"], dir c!"user" 1 [c!"a"]])]) := by
  constructor <;> decide +kernel

end Verif
