import Verif.Props.Project
import Verif.Props.Relate
import Verif.Props.Combine
/-!
# C71: projects with CombineConfigs
-/
namespace Verif
open Spec

/-- If the files can be parsed, they can be parsed and combined. -/
theorem Parse_combines {env : Env} (hperm : ∀ l, (env.mapOrder l).Perm l) {fuel : Nat} {filename : Str} {o : ParseOptions} {p : Payload}
    (h : Parse env fuel filename { o with combineConfigs := false } = .ok p) :
    ∃ q, Parse env fuel filename { o with combineConfigs := true } = .ok q ∧ combined (p.config.length + 1) p.tagFiles = .ok q := by
  change Parse env fuel filename (o.withCombine false) = _ at h
  have hp : parseRaw env fuel filename (o.withCombine false) = .ok p := by
    rw [Parse_raw] at h
    cases hr : parseRaw env fuel filename (o.withCombine false) with
    | ok p' => rw [hr] at h; exact h
    | err => rw [hr] at h; cases h
    | panic => rw [hr] at h; cases h
    | fuel => rw [hr] at h; cases h
  have hraw : parseRaw env fuel filename (o.withCombine true) = .ok p.tagFiles := by
    rw [(sim_combine env o).raw, hp]; rfl
  obtain ⟨cs, ps', h1, h2, h3⟩ := parseRaw_ok hraw
  obtain ⟨q, hq⟩ := C39_combines hperm h1 h2
  have hlen : p.config.length = cs.length := by
    have := congrArg (fun p : Payload => p.config.length) h3
    simpa [Payload.tagFiles, rawPayload] using this
  rw [← h3, ← hlen] at hq
  have h33 := C33_combined env fuel filename o
  change _ = (Parse env fuel filename (o.withCombine false)).bind _ at h33
  rw [h] at h33
  exact ⟨q, h33.trans hq, hq⟩

/-- The files of a project as configs, every directive with the name of its file. -/
def configsOf (fs : List SourceFile) : List Config := fs.map fun f => { file := f.name, status := c!"ok", parsed := tagFile f.name f.tree }

theorem configsOf_eq (fs : List SourceFile) : (okPayload (fs.map fun f => (f.name, f.tree))).tagFiles.config = configsOf fs := by
  simp only [Payload.tagFiles, okPayload, configsOf, List.map_map]
  rfl

/-- C71 with CombineConfigs.  The combination of a project is one file: the first one, with every include directive replaced in place by the
directives of the files it names. -/
theorem C71_combined {env : Env} {o : ParseOptions} {text : Str → Option FileData} {matching : Str → Option (List Str)} (ho : Followed env o text matching)
    {filename : Str} {fs : List SourceFile} {fuel : Nat} (hf : fs.length < fuel) (hfresh : ∀ f ∈ fs, Fresh f.ctx.length)
    (h : IsProject env o text matching filename fs) :
    ∃ f0 rest out, fs = f0 :: rest ∧ f0.name = filename ∧ Expands (configsOf fs) (tagFile f0.name f0.tree) out ∧
      Parse env fuel filename { o with combineConfigs := true } = .ok (okPayload [(filename, out)]) := by
  obtain ⟨f0, rest, rfl, h0⟩ : ∃ f0 rest, fs = f0 :: rest ∧ f0.name = filename := by
    have h1 := h.files
    obtain ⟨l, hl⟩ := collect_prefix [(filename, [])] (fs.flatMap (·.refs (diskNames env (env.dir filename) text matching)))
    change _ = collect [(filename, [])] (fs.flatMap (·.refs (diskNames env (env.dir filename) text matching))) at h1
    rw [← hl] at h1
    cases fs with
    | nil => simp at h1
    | cons f0 rest =>
      rw [List.map_cons, List.singleton_append, List.cons.injEq, Prod.mk.injEq] at h1
      exact ⟨f0, rest, rfl, h1.1.1⟩
  have hplain := C71_complete ho hf hfresh h
  have ho' : { o with combineConfigs := false } = o := by rw [← ho.combine]
  obtain ⟨q, h1, h2⟩ := Parse_combines ho.perm (o := o) (by rw [ho']; exact hplain)
  obtain ⟨out, st, h3, h4, h5⟩ := (C35_combined_iff _ q _ _ (configsOf_eq (f0 :: rest))).mp ⟨_, h2⟩
  rw [configsOf_eq] at h3 h4 h5
  have hall : ∀ c ∈ configsOf (f0 :: rest), c.status = c!"ok" ∧ c.errors = [] := by
    intro c hc
    obtain ⟨f, -, rfl⟩ := List.mem_map.mp hc
    exact ⟨rfl, rfl⟩
  have hst : st = c!"ok" := by
    rcases h4 with ⟨-, c, hc, hf⟩ | ⟨h4, -⟩
    · rw [(hall c hc).1] at hf; simp at hf
    · exact h4
  have herr : (configsOf (f0 :: rest)).flatMap (·.errors) = [] := List.flatMap_eq_nil_iff.mpr fun c hc => (hall c hc).2
  refine ⟨f0, rest, out, rfl, h0, h3, ?_⟩
  rw [h1, h5, herr, hst]
  simp only [okPayload, List.map_cons, List.map_nil]
  rw [← h0]
  rfl

/-- C71 with CombineConfigs (soundness).  If the combined payload is ok, so is the payload of the files, and it is their combination. -/
theorem C71_combined_sound {env : Env} {o : ParseOptions} {filename : Str} {fuel : Nat} {q : Payload}
    (h : Parse env fuel filename { o with combineConfigs := true } = .ok q) (hs : q.status = c!"ok") :
    ∃ p c0 rest out, Parse env fuel filename { o with combineConfigs := false } = .ok p ∧ p.status = c!"ok" ∧ p.tagFiles.config = c0 :: rest ∧
      Expands p.tagFiles.config c0.parsed out ∧ ∃ c, q.config = [c] ∧ c.parsed = out := by
  rw [C33_combined] at h
  cases hp : Parse env fuel filename { o with combineConfigs := false } with
  | ok p =>
    rw [hp] at h
    change combined _ _ = _ at h
    cases hc : p.tagFiles.config with
    | nil =>
      obtain ⟨cs, ps', h1, -, h2, -⟩ := Parse_ok hp
      obtain rfl := h2 rfl
      obtain rfl : cs = [] := by simpa [Payload.tagFiles, rawPayload] using hc
      cases h1 with
      | nil _ hq => simp [initPS] at hq
    | cons c0 rest =>
      obtain ⟨out, st, h1, -, h2⟩ := (C35_combined_iff _ q c0 rest hc).mp ⟨_, h⟩
      refine ⟨p, c0, rest, out, rfl, ?_, hc, h1, _, by rw [h2], rfl⟩
      rcases (C17_status hp).1 with ⟨k, -⟩ | ⟨k, -⟩
      · rw [h2] at hs
        have e : p.tagFiles.status = p.status := rfl
        rw [e, k] at hs
        simp at hs
      · exact k
  | err => rw [hp] at h; cases h
  | panic => rw [hp] at h; cases h
  | fuel => rw [hp] at h; cases h

/-- Two files; the second one is included twice. -/
example : Parse (exEnv exTwo) 3 c!"/e/n" { exOpts with combineConfigs := true } =
    .ok (okPayload [(c!"/e/n", [⟨c!"http", 1, [], c!"/e/n", none,
      some [⟨c!"x", 1, [c!"y"], c!"/e/a", none, none, none, false⟩, ⟨c!"x", 1, [c!"y"], c!"/e/a", none, none, none, false⟩], none, false⟩])]) := by
  decide +kernel

end Verif
