import Verif.Proofs.IncludeTree
import Verif.Proofs.Congr
import Verif.Proofs.IfArgs
import Mathlib.Data.List.Nodup
import Mathlib.Data.List.Perm.Subperm
/-!
# C13, C14, C15, C16, C20, C39: includes, termination, cycles
-/
namespace Verif
open Spec

/-! ## C15 -/

/-- C15.  Without CombineConfigs the indices of an include directive are, in order, those of the configs of the files its
argument stands for. -/
theorem C15_includes {env : Env} {fuel : Nat} {filename : Str} {o : ParseOptions} {p : Payload} (h : Parse env fuel filename o = .ok p)
    (hcomb : o.combineConfigs = false) {cfg : Config} (hc : cfg ∈ p.config) {d : Directive} (hd : Within d cfg.parsed)
    {is : List Int} (hi : d.includes = some is) :
    ∃ arg names, d.directive = c!"include" ∧ d.args.head? = some arg ∧ Resolves env (env.dir filename) arg names ∧ names ≠ [] ∧
      List.Forall₂ (fun f (i : Int) => ∃ (n : Nat) (c : Config), i = n ∧ p.config[n]? = some c ∧ c.file = f) names is := by
  obtain ⟨cs, ps', h1, -, h3, -⟩ := Parse_ok h
  obtain rfl := h3 hcomb
  obtain ⟨ctx, hctx⟩ := h1.nodes.2 cfg hc
  obtain ⟨c, hat⟩ := within_at hd ctx
  have hn := hctx d c hat
  have key : ∀ {names : List Str} {is : List Int}, List.Forall₂ (fun f i => ps'.included.lookup f = some i) names is →
      List.Forall₂ (fun f (i : Int) => ∃ (n : Nat) (c : Config), i = n ∧ cs[n]? = some c ∧ c.file = f) names is := by
    intro names is h
    refine h.imp ?_
    intro f i hl
    rw [h1.included_eq.1] at hl
    obtain ⟨n, rfl, hn⟩ := indexed_lookup hl
    clear hl
    rename' hn => hl
    rw [List.getElem?_map] at hl
    cases hcn : cs[n]? with
    | none => rw [hcn] at hl; cases hl
    | some c => rw [hcn] at hl; exact ⟨n, c, rfl, hcn, by simpa using hl⟩
  cases hn with
  | comment => cases hi
  | param => cases hi
  | stmt t args term stmt is' block _ _ _ _ _ _ hin =>
    cases hi
    cases hin with
    | names a as names _ _ hn ha hr hne hf => exact ⟨a, names, hn, by rw [ha]; rfl, hr, hne, key hf⟩

/-- C15.  The first config is the file passed to `Parse`; this holds with CombineConfigs too. -/
theorem C15_first {env : Env} {fuel : Nat} {filename : Str} {o : ParseOptions} {p : Payload} (h : Parse env fuel filename o = .ok p) :
    ∃ c0 rest, p.config = c0 :: rest ∧ c0.file = filename := by
  obtain ⟨cs, ps', h1, -, h3, h4⟩ := Parse_ok h
  obtain ⟨c0, cs', hcs, hf⟩ := h1.ne_nil _ _ rfl
  cases hcomb : o.combineConfigs with
  | false => rw [h3 hcomb]; exact ⟨c0, cs', hcs, hf⟩
  | true =>
    obtain ⟨out, st, he, -, rfl⟩ := (C35_combined_iff (rawPayload ps' cs) p c0 cs' hcs).mp ⟨_, h4 hcomb⟩
    exact ⟨_, _, rfl, hf⟩

/-- Three files; the first is included by the others' names, one of them twice. -/
def exThree : Env := exEnv [(c!"/e/n", c!"include a;\ninclude /e/a;\nhttp{include b;}"), (c!"/e/a", c!"user x;"), (c!"/e/b", c!"server{}")]

example : Parse exThree 4 c!"/e/n" exOpts = .ok (okPayload [
    (c!"/e/n", [incl 1 c!"a" [1], incl 2 c!"/e/a" [1], blk c!"http" 3 [] [incl 3 c!"b" [2]]]),
    (c!"/e/a", [dir c!"user" 1 [c!"x"]]), (c!"/e/b", [blk c!"server" 1 [] []])]) := by decide +kernel

/-! ## C39 -/

/-- The include graph that the worklist loop came across has no cycle: what the check before combining establishes. -/
theorem FilesOk.acyclic_iff {env : Env} (hperm : ∀ l, (env.mapOrder l).Perm l) {o : ParseOptions} {filename : Str} {cs : List Config} {ps' : PS}
    (h : FilesOk env o (env.dir filename) (initPS filename) cs ps') :
    (isAcyclic env ps' = true ↔ ∃ a, Relation.TransGen (FileIncludes env o (env.dir filename) (initPS filename)) a a) ∧
    (isAcyclic env ps' = false → ∃ order : Str → Nat, (∀ u v, ps'.Edge u v → order u < order v) ∧ ∀ c ∈ cs, order c.file < cs.length) := by
  obtain ⟨hk1, hk2⟩ := h.included_eq
  obtain ⟨G, hG⟩ := h.graph (init_table filename) ⟨_, init_graph filename⟩
  have hkeys : ps'.included.map (·.1) = cs.map (·.file) := by rw [hk1, indexed_keys]
  obtain ⟨h1, h2⟩ := isAcyclic_spec hperm hG (by rw [hkeys]; exact hk2)
  have hE : ps'.Edge = FileIncludes env o (env.dir filename) (initPS filename) := by
    funext u v
    rw [eq_iff_iff, h.edges u v]
    constructor
    · rintro (h | h)
      · simp [PS.Edge, outEdges, initPS] at h
      · exact h
    · exact Or.inr
  refine ⟨by rw [h1, hE], fun hf => ?_⟩
  obtain ⟨order, h3, h4⟩ := h2 hf
  refine ⟨order, h3, fun c hc => ?_⟩
  have := h4 c.file (by rw [hkeys]; exact List.mem_map_of_mem hc)
  rwa [hk1, indexed_length, List.length_map] at this

/-- C39.  When all files of the worklist have been parsed and the include check passes, combining succeeds. -/
theorem C39_combines {env : Env} (hperm : ∀ l, (env.mapOrder l).Perm l) {o : ParseOptions} {filename : Str} {cs : List Config} {ps' : PS}
    (h : FilesOk env o (env.dir filename) (initPS filename) cs ps') (ha : isAcyclic env ps' = false) :
    ∃ p, combined (cs.length + 1) (rawPayload ps' cs) = .ok p := by
  obtain ⟨order, h1, h2⟩ := (h.acyclic_iff hperm).2 ha
  obtain ⟨c0, cs', hcs, -⟩ := h.ne_nil _ _ rfl
  have hterm : combined (cs.length + 1) (rawPayload ps' cs) ≠ .fuel := by
    refine C37_terminates (rawPayload ps' cs) (fun i => cs.length - order ((cs[i]?.map (·.file)).getD [])) ?_ _ (by omega)
    intro i d j _ hn hj
    obtain ⟨n, ci, cj, hjn, hci, hcj, he⟩ := h.names hn
    obtain rfl : j = n := by omega
    simp only [hci, hcj, Option.map_some, Option.getD_some]
    have := h1 _ _ he
    have := h2 cj (List.mem_of_getElem? hcj)
    omega
  have hneg : ∀ i d j, Reach (rawPayload ps' cs).config i → Names (rawPayload ps' cs).config i d j → 0 ≤ j ∧ j < cs.length := by
    intro i d j _ hn
    obtain ⟨n, ci, cj, rfl, -, hcj, -⟩ := h.names hn
    have := (List.getElem?_eq_some_iff.mp hcj).1
    omega
  cases hr : combined (cs.length + 1) (rawPayload ps' cs) with
  | ok p => exact ⟨p, rfl⟩
  | fuel => exact absurd hr hterm
  | err e =>
    obtain ⟨i, d, j, h3, h4, h5⟩ := (C37_error_iff hterm (fun i d j a b => (hneg i d j a b).1)).mp ⟨e, hr⟩
    have := hneg i d j h3 h4
    have h5 : j ≥ cs.length := h5
    omega
  | panic =>
    unfold combined at hr
    have h0 : (rawPayload ps' cs).config[0]? = some c0 := by rw [show (rawPayload ps' cs).config = cs from rfl, hcs]; rfl
    split at hr
    · cases hr
    · rename_i c0' rest' hc'
      obtain ⟨rfl, rfl⟩ := List.cons.inj (hcs.symm.trans hc')
      rcases Res.bind_panic.mp hr with hr | ⟨a, -, hr⟩
      · obtain ⟨i, d, j, h3, h4, h5⟩ := performIncludes_panic _ .zero h0 hr
        have := hneg i d j h3 h4
        omega
      · cases hr

/-- The same files combined. -/
example : Parse exThree 4 c!"/e/n" { exOpts with combineConfigs := true } = .ok { status := c!"ok", config := [{ file := c!"/e/n", status := c!"ok", parsed := [
    { dir c!"user" 1 [c!"x"] with file := c!"/e/a" }, { dir c!"user" 1 [c!"x"] with file := c!"/e/a" },
    { blk c!"http" 3 [] [{ blk c!"server" 1 [] [] with file := c!"/e/b" }] with file := c!"/e/n" }] }] } := by decide +kernel

/-- `Parse` ends like the worklist loop: with its error, with a payload, or with the error for a cycle. -/
theorem Parse_cases {env : Env} (hperm : ∀ l, (env.mapOrder l).Perm l) (fuel : Nat) (filename : Str) (o : ParseOptions) :
    (∃ cs ps', FilesOk env o (env.dir filename) (initPS filename) cs ps' ∧
      ((isAcyclic env ps' = true ∧ Parse env fuel filename o = .err cycleError) ∨
       (isAcyclic env ps' = false ∧ ∃ p, Parse env fuel filename o = .ok p))) ∨
    (∃ e ps', FilesFail env o (env.dir filename) (initPS filename) e ps' ∧ Parse env fuel filename o = failRes e) ∨
    (∃ ps', FilesMore env o (env.dir filename) fuel (initPS filename) ps' ∧ Parse env fuel filename o = .fuel) := by
  rcases Parse_eq env fuel filename o with ⟨cs, ps', h1, h2⟩ | h | h
  · refine Or.inl ⟨cs, ps', h1, ?_⟩
    cases ha : isAcyclic env ps' with
    | true => exact Or.inl ⟨rfl, by rw [h2, ha]; rfl⟩
    | false =>
      refine Or.inr ⟨rfl, ?_⟩
      rw [ha] at h2
      cases hc : o.combineConfigs with
      | false => exact ⟨_, by rw [h2, hc]; rfl⟩
      | true =>
        obtain ⟨p, hp⟩ := C39_combines hperm h1 ha
        exact ⟨p, by rw [h2, hc]; simpa using hp⟩
  · exact Or.inr (Or.inl h)
  · exact Or.inr (Or.inr h)

/-! ## C14 -/

/-- C14.  If the files that can be opened are among those of a finite list, `Parse` terminates. -/
theorem C14_terminates {env : Env} (hperm : ∀ l, (env.mapOrder l).Perm l) (files : List Str)
    (hfin : ∀ k f data, env.openFile k f = .ok data → f ∈ files) (filename : Str) (o : ParseOptions) (fuel : Nat) (hf : files.length < fuel) :
    Parse env fuel filename o ≠ .fuel := by
  rcases Parse_cases hperm fuel filename o with ⟨cs, ps', h1, ⟨-, h2⟩ | ⟨-, p, h2⟩⟩ | ⟨e, ps', h1, h2⟩ | ⟨ps', h1, h2⟩
  · rw [h2]; simp
  · rw [h2]; simp
  · rw [h2]; cases e <;> simp [failRes]
  · obtain ⟨fs, h3, h4, h5⟩ := h1.table (init_table filename)
    have hnd : fs.Nodup := by
      have := h4.nodup
      simp only [List.nil_append] at this
      exact (List.nodup_append.mp this).1
    have hsub : fs ⊆ files := by
      intro f hf
      obtain ⟨k, data, h⟩ := h5 f hf
      exact hfin k f data h
    have := (hnd.subperm hsub).length_le
    omega

/-- C14.  No file name occurs twice in the payload. -/
theorem C14_once {env : Env} {fuel : Nat} {filename : Str} {o : ParseOptions} {p : Payload} (h : Parse env fuel filename o = .ok p) :
    (p.config.map (·.file)).Nodup := by
  obtain ⟨cs, ps', h1, -, h3, h4⟩ := Parse_ok h
  cases hcomb : o.combineConfigs with
  | false => rw [h3 hcomb]; exact h1.included_eq.2
  | true =>
    obtain ⟨c0, cs', hcs, hf⟩ := h1.ne_nil _ _ rfl
    obtain ⟨out, st, he, -, rfl⟩ := (C35_combined_iff (rawPayload ps' cs) p c0 cs' hcs).mp ⟨_, h4 hcomb⟩
    simp

/-- Fuel that is enough stays enough. -/
theorem parseFiles_mono {env : Env} {o : ParseOptions} {configDir : Str} (fuel : Nat) {ps ps' : PS} {configs : List Config} {r : Res (List Config)}
    (h : parseFiles env o configDir fuel ps configs = (r, ps')) (hr : r ≠ .fuel) (k : Nat) :
    parseFiles env o configDir (fuel + k) ps configs = (r, ps') := by
  induction fuel generalizing ps configs with
  | zero => cases h; exact absurd rfl hr
  | succ fuel ih =>
    rw [show fuel + 1 + k = fuel + k + 1 by omega]
    unfold parseFiles at h ⊢
    split at h
    · exact h
    · rename_i incl rest hi
      simp only at h ⊢
      split at h
      · exact h
      · rename_i data ho
        split at h
        · exact ih h
        · split at h
          · rename_i hs; simp only [hs, if_true]; exact h
          · rename_i hs; simp only [hs]; exact ih h
        · exact h
        · exact h

/-- C14.  The result does not depend on the bound once it is enough: the model's bound is not a limit of the program. -/
theorem C14_fuel {env : Env} {fuel : Nat} {filename : Str} {o : ParseOptions} (h : Parse env fuel filename o ≠ .fuel)
    {fuel' : Nat} (hf : fuel ≤ fuel') : Parse env fuel' filename o = Parse env fuel filename o := by
  obtain ⟨k, rfl⟩ := Nat.exists_eq_add_of_le hf
  unfold Parse at h ⊢
  cases hr : parseFiles env o (env.dir filename) fuel (initPS filename) [] with
  | mk r ps' =>
    rw [hr] at h
    have : r ≠ .fuel := by rintro rfl; exact h rfl
    rw [parseFiles_mono fuel hr this k]

/-! ## C16 -/

/-- The worklist loop ends in the model when the bound is greater than the number of files. -/
theorem FilesOk.parseFiles_eq {env : Env} {o : ParseOptions} {configDir : Str} {ps ps' : PS} {cs : List Config}
    (h : FilesOk env o configDir ps cs ps') (fuel : Nat) (hf : cs.length < fuel) (configs : List Config) :
    parseFiles env o configDir fuel ps configs = (.ok (configs ++ cs), ps') := by
  induction h generalizing fuel configs with
  | nil ps hi =>
    obtain ⟨fuel, rfl⟩ : ∃ k, fuel = k + 1 := ⟨fuel - 1, by omega⟩
    unfold parseFiles; rw [hi]; simp
  | ok ps incl rest data ds toks' ps1 cs ps' hi ho hr hfo ih =>
    obtain ⟨fuel, rfl⟩ : ∃ k, fuel = k + 1 := ⟨fuel - 1, by omega⟩
    unfold parseFiles
    have := hr.parse_eq ((fileToks o data).length + 1) [] (by omega)
    unfold fileToks startFile at this
    simp only [hi, ho, this]
    refine (ih fuel (by simp at hf; omega) _).trans ?_
    simp [fileConfig]
  | bad ps incl rest data e toks' ps1 cs ps' hi ho hr hs hfo ih =>
    obtain ⟨fuel, rfl⟩ : ∃ k, fuel = k + 1 := ⟨fuel - 1, by omega⟩
    unfold parseFiles
    have := hr.parse_eq ((fileToks o data).length + 1) [] (by omega)
    unfold fileToks startFile at this
    simp only [hi, ho, this, failRes, hs, Bool.false_eq_true, if_false]
    refine (ih fuel (by simp at hf; omega) _).trans ?_
    simp [fileConfig]

/-- C16.  When all files of the worklist have been processed, `Parse` reports a cycle iff a file includes itself through one or
more of the include directives that the parser came across; otherwise it returns a payload. -/
theorem C16_cycle_iff {env : Env} (hperm : ∀ l, (env.mapOrder l).Perm l) {filename : Str} {o : ParseOptions} {cs : List Config} {ps' : PS}
    (h : FilesOk env o (env.dir filename) (initPS filename) cs ps') {fuel : Nat} (hf : cs.length < fuel) :
    (Parse env fuel filename o = .err cycleError ↔
      ∃ a, Relation.TransGen (FileIncludes env o (env.dir filename) (initPS filename)) a a) ∧
    (Parse env fuel filename o = .err cycleError ∨ ∃ p, Parse env fuel filename o = .ok p) := by
  have hp : Parse env fuel filename o = if isAcyclic env ps' then .err cycleError
        else if o.combineConfigs then combined (cs.length + 1) (rawPayload ps' cs) else .ok (rawPayload ps' cs) := by
    unfold Parse
    rw [h.parseFiles_eq fuel hf []]
    rfl
  rw [← (h.acyclic_iff hperm).1, hp]
  cases ha : isAcyclic env ps' with
  | true => simp
  | false =>
    cases hc : o.combineConfigs with
    | false => simp
    | true =>
      obtain ⟨p, hp⟩ := C39_combines hperm h ha
      simp [hp]

/-- C16.  The cycle error comes from a cycle, unless it is the error with which the worklist loop failed. -/
theorem C16_no_false_alarm {env : Env} (hperm : ∀ l, (env.mapOrder l).Perm l) {fuel : Nat} {filename : Str} {o : ParseOptions}
    (h : Parse env fuel filename o = .err cycleError) :
    (∃ a, Relation.TransGen (FileIncludes env o (env.dir filename) (initPS filename)) a a) ∨
    ∃ ps', FilesFail env o (env.dir filename) (initPS filename) (some cycleError) ps' := by
  rcases Parse_cases hperm fuel filename o with ⟨cs, ps', h1, ⟨h2, -⟩ | ⟨-, p, h2⟩⟩ | ⟨e, ps', h1, h2⟩ | ⟨ps', h1, h2⟩
  · exact Or.inl ((h1.acyclic_iff hperm).1.mp h2)
  · rw [h] at h2; cases h2
  · rw [h] at h2
    cases e with
    | none => cases h2
    | some e => cases h2; exact Or.inr ⟨_, h1⟩
  · rw [h] at h2; cases h2

/-- C16.  The indices in a payload have no cycle. -/
theorem C16_payload {env : Env} (hperm : ∀ l, (env.mapOrder l).Perm l) {fuel : Nat} {filename : Str} {o : ParseOptions} {p : Payload}
    (h : Parse env fuel filename o = .ok p) (hcomb : o.combineConfigs = false) (i : Nat) :
    ¬ Relation.TransGen (fun i j : Nat => ∃ d, Names p.config i d (j : Int)) i i := by
  obtain ⟨cs, ps', h1, ha, h3, -⟩ := Parse_ok h
  obtain rfl := h3 hcomb
  obtain ⟨order, h4, -⟩ := (h1.acyclic_iff hperm).2 ha
  have key : ∀ i j, Relation.TransGen (fun i j : Nat => ∃ d, Names cs i d (j : Int)) i j →
      order ((cs[i]?.map (·.file)).getD []) < order ((cs[j]?.map (·.file)).getD []) := by
    intro i j h
    induction h with
    | single h =>
      obtain ⟨d, hn⟩ := h
      obtain ⟨n, ci, cj, hj, hci, hcj, he⟩ := h1.names hn
      cases Int.ofNat.inj hj
      simpa [hci, hcj] using h4 _ _ he
    | tail _ h ih =>
      obtain ⟨d, hn⟩ := h
      obtain ⟨n, ci, cj, hj, hci, hcj, he⟩ := h1.names hn
      cases Int.ofNat.inj hj
      refine Nat.lt_trans ih ?_
      simpa [hci, hcj] using h4 _ _ he
  intro hc
  exact absurd (key i i hc) (Nat.lt_irrefl _)

/-- C16.  The iteration order of Go maps does not matter. -/
theorem C16_map_order {env : Env} (hperm : ∀ l, (env.mapOrder l).Perm l) (order : List Str → List Str) (hperm' : ∀ l, (order l).Perm l)
    (fuel : Nat) (filename : Str) (o : ParseOptions) :
    Parse { env with mapOrder := order } fuel filename o = Parse env fuel filename o := by
  have hpf : parseFiles { env with mapOrder := order } o (env.dir filename) fuel (initPS filename) [] =
      parseFiles env o (env.dir filename) fuel (initPS filename) [] :=
    parseFiles_congr (env := { env with mapOrder := order }) (env' := env) (fun _ _ _ _ => rfl) (fun _ _ => rfl) fuel _ _
  unfold Parse
  rw [show ({ env with mapOrder := order } : Env).dir = env.dir from rfl, hpf]
  rcases parseFiles_run env o (env.dir filename) fuel (initPS filename) [] with ⟨cs, ps', h1, h2⟩ | ⟨e, ps', h1, h2⟩ | ⟨ps', h1, h2⟩
  · rw [h2]
    have hac : isAcyclic { env with mapOrder := order } ps' = isAcyclic env ps' := by
      obtain ⟨G, hG⟩ := h1.graph (init_table filename) ⟨_, init_graph filename⟩
      have hkeys : ps'.included.map (·.1) = cs.map (·.file) := by rw [h1.included_eq.1, indexed_keys]
      have hnd : (ps'.included.map (·.1)).Nodup := by rw [hkeys]; exact h1.included_eq.2
      have e1 := (isAcyclic_spec hperm hG hnd).1
      have e2 := (isAcyclic_spec (env := { env with mapOrder := order }) hperm' hG hnd).1
      rw [Bool.eq_iff_iff, e1, e2]
    simp only [hac]
  · rw [h2]; cases e <;> rfl
  · rw [h2]

/-- Two files that include each other, and one that includes itself by a pattern. -/
example : Parse (exEnv [(c!"/e/n", c!"include a;"), (c!"/e/a", c!"include n;")]) 3 c!"/e/n" exOpts = .err cycleError ∧
    Parse (exEnv [(c!"/e/n", c!"include *;")]) 2 c!"/e/n" exOpts = .err cycleError ∧
    Parse (exEnv [(c!"/e/n", c!"include a; include b;"), (c!"/e/a", c!"include b;"), (c!"/e/b", c!"")]) 4 c!"/e/n" exOpts =
      .ok (okPayload [(c!"/e/n", [incl 1 c!"a" [1], incl 1 c!"b" [2]]), (c!"/e/a", [incl 1 c!"b" [2]]), (c!"/e/b", [])]) := by
  decide +kernel

/-! ## Failing runs -/

/-- A failing run fails at a round it comes to. -/
theorem RunFail.visit {env : Env} {o : ParseOptions} {configDir file : Str} {ctx : Ctx} {toks toks' : List Tok} {ps ps' : PS} {e : Option GoErr}
    (h : RunFail env o configDir file ctx toks ps e toks' ps') :
    ∃ ctx1 t1 toks1 ps1, Visits env o configDir file ctx toks ps ctx1 t1 toks1 ps1 ∧
      ∃ toks2 ps2, step env o configDir file ctx1 t1 toks1 ps1 = .fail e toks2 ps2 := by
  induction h with
  | fail ctx t toks ps e toks' ps' hs => exact ⟨_, _, _, _, .here _ _ _ _, _, _, hs⟩
  | next ctx t toks ps new toks1 ps1 e toks' ps' hs hr ih =>
    obtain ⟨_, _, _, _, hv, h⟩ := ih
    exact ⟨_, _, _, _, .next _ _ _ _ _ _ _ _ _ _ _ hs hv, h⟩
  | inside ctx t toks ps stmt comments toks1 ps1 e toks' ps' hs hr ih =>
    obtain ⟨_, _, _, _, hv, h⟩ := ih
    exact ⟨_, _, _, _, .inside _ _ _ _ _ _ _ _ _ _ _ _ hs hv, h⟩
  | after ctx t toks ps stmt comments toks1 ps1 b toks2 ps2 e toks' ps' hs hr1 hr2 ih =>
    obtain ⟨_, _, _, _, hv, h⟩ := ih
    exact ⟨_, _, _, _, .after _ _ _ _ _ _ _ _ _ _ _ _ _ _ _ hs hr1 hv, h⟩

theorem FilesMore.visits {env : Env} {o : ParseOptions} {configDir : Str} {n : Nat} {ps ps1 ps2 : PS} {file : Str} {ctx : Ctx} {t : Tok} {toks : List Tok}
    (h : FilesMore env o configDir n ps ps1) (hv : FilesVisits env o configDir ps1 file ctx t toks ps2) :
    FilesVisits env o configDir ps file ctx t toks ps2 := by
  induction h with
  | zero => exact hv
  | ok n ps incl rest data ds toks' ps1 ps' hi ho hr hf ih => exact .ok _ _ _ _ _ _ _ _ _ _ _ _ hi ho hr (ih hv)
  | bad n ps incl rest data e toks' ps1 ps' hi ho hr hs hf ih => exact .bad _ _ _ _ _ _ _ _ _ _ _ _ hi ho hr hs (ih hv)

/-- A failing worklist loop fails because a file cannot be opened, or at a round it comes to. -/
theorem FilesFail.origin {env : Env} {o : ParseOptions} {configDir : Str} {ps ps' : PS} {e : Option GoErr} (h : FilesFail env o configDir ps e ps') :
    (∃ n ps1 incl rest err, FilesMore env o configDir n ps ps1 ∧ ps1.includes = incl :: rest ∧
      env.openFile ps1.opens incl.path = .error err ∧ e = some err) ∨
    (∃ file ctx t toks ps1 toks2 ps2, FilesVisits env o configDir ps file ctx t toks ps1 ∧
      step env o configDir file ctx t toks ps1 = .fail e toks2 ps2 ∧ (e = none ∨ o.stopParsingOnError = true)) := by
  induction h with
  | openErr ps incl rest e hi ho => exact Or.inl ⟨0, ps, incl, rest, e, .zero _, hi, ho, rfl⟩
  | stop ps incl rest data e toks' ps1 hi ho hr hs =>
    obtain ⟨_, _, _, _, hv, _, _, h⟩ := hr.visit
    exact Or.inr ⟨_, _, _, _, _, _, _, .here _ _ _ _ _ _ _ _ hi ho hv, h, Or.inr hs⟩
  | panic ps incl rest data toks' ps1 hi ho hr =>
    obtain ⟨_, _, _, _, hv, _, _, h⟩ := hr.visit
    exact Or.inr ⟨_, _, _, _, _, _, _, .here _ _ _ _ _ _ _ _ hi ho hv, h, Or.inl rfl⟩
  | ok ps incl rest data ds toks' ps1 e ps' hi ho hr hf ih =>
    rcases ih with ⟨n, ps2, i2, r2, err, h1, h2⟩ | ⟨_, _, _, _, _, _, _, hv, h2⟩
    · exact Or.inl ⟨n + 1, ps2, i2, r2, err, .ok _ _ _ _ _ _ _ _ _ hi ho hr h1, h2⟩
    · exact Or.inr ⟨_, _, _, _, _, _, _, .ok _ _ _ _ _ _ _ _ _ _ _ _ hi ho hr hv, h2⟩
  | bad ps incl rest data e1 toks' ps1 e ps' hi ho hr hs hf ih =>
    rcases ih with ⟨n, ps2, i2, r2, err, h1, h2⟩ | ⟨_, _, _, _, _, _, _, hv, h2⟩
    · exact Or.inl ⟨n + 1, ps2, i2, r2, err, .bad _ _ _ _ _ _ _ _ _ hi ho hr hs h1, h2⟩
    · exact Or.inr ⟨_, _, _, _, _, _, _, .bad _ _ _ _ _ _ _ _ _ _ _ _ hi ho hr hs hv, h2⟩

/-- A round that panics is the end of the loop. -/
theorem FilesFail.visits {env : Env} {o : ParseOptions} {configDir : Str} {ps ps1 : PS} {file : Str} {ctx : Ctx} {t : Tok} {toks : List Tok}
    (hv : FilesVisits env o configDir ps file ctx t toks ps1) {toks2 : List Tok} {ps2 : PS}
    (hs : step env o configDir file ctx t toks ps1 = .fail none toks2 ps2) : ∀ {e ps'}, FilesFail env o configDir ps e ps' → e = none := by
  induction hv with
  | here ps incl rest data ctx t toks ps1 hi ho hv =>
    intro e ps' hf
    cases hf with
    | openErr _ _ _ _ hi' ho' => rw [hi] at hi'; cases hi'; rw [ho] at ho'; cases ho'
    | stop _ _ _ _ _ _ _ hi' ho' hr =>
      rw [hi] at hi'; cases hi'; rw [ho] at ho'; cases ho'
      cases (RunFail.visits hv hr).1 _ _ _ hs
    | panic => rfl
    | ok _ _ _ _ _ _ _ _ _ hi' ho' hr =>
      rw [hi] at hi'; cases hi'; rw [ho] at ho'; cases ho'
      exact absurd hs ((RunOk.visits hv hr).1 _ _ _)
    | bad _ _ _ _ _ _ _ _ _ hi' ho' hr =>
      rw [hi] at hi'; cases hi'; rw [ho] at ho'; cases ho'
      cases (RunFail.visits hv hr).1 _ _ _ hs
  | ok ps incl rest data ds toks' ps1 file ctx t toks ps2 hi ho hr hv ih =>
    intro e ps' hf
    cases hf with
    | openErr _ _ _ _ hi' ho' => rw [hi] at hi'; cases hi'; rw [ho] at ho'; cases ho'
    | stop _ _ _ _ _ _ _ hi' ho' hr' =>
      rw [hi] at hi'; cases hi'; rw [ho] at ho'; cases ho'
      exact absurd hr' (fun h => hr.not_fail h)
    | panic => rfl
    | ok _ _ _ _ _ _ _ _ _ hi' ho' hr' hf =>
      rw [hi] at hi'; cases hi'; rw [ho] at ho'; cases ho'
      obtain ⟨-, -, rfl⟩ := hr.det hr'
      exact ih hs hf
    | bad _ _ _ _ _ _ _ _ _ hi' ho' hr' =>
      rw [hi] at hi'; cases hi'; rw [ho] at ho'; cases ho'
      exact absurd hr' (fun h => hr.not_fail h)
  | bad ps incl rest data e toks' ps1 file ctx t toks ps2 hi ho hr hst hv ih =>
    intro e ps' hf
    cases hf with
    | openErr _ _ _ _ hi' ho' => rw [hi] at hi'; cases hi'; rw [ho] at ho'; cases ho'
    | stop _ _ _ _ _ _ _ hi' ho' hr' hs' => rw [hst] at hs'; cases hs'
    | panic => rfl
    | ok _ _ _ _ _ _ _ _ _ hi' ho' hr' hf =>
      rw [hi] at hi'; cases hi'; rw [ho] at ho'; cases ho'
      exact absurd hr (fun h => hr'.not_fail h)
    | bad _ _ _ _ _ _ _ _ _ hi' ho' hr' _ hf =>
      rw [hi] at hi'; cases hi'; rw [ho] at ho'; cases ho'
      obtain ⟨he, -, rfl⟩ := hr.det hr'
      cases he
      exact ih hs hf

/-! ## C13 -/

/-- The statement at a round is an accepted `if` whose one argument is a pair of parentheses with nothing but white space between. -/
def EmptyIf (o : ParseOptions) (file : Str) (ctx : Ctx) (t : Tok) (toks : List Tok) : Prop :=
  ∃ args comments term rest w, Reads o t toks args comments term rest ∧ mapCtx ctx.vals = none ∧ contains o.ignoreDirectives t.value = false ∧
    analyze file (baseStmt o file t args) term.value ctx.vals o = none ∧ t.value = c!"if" ∧ args = ['(' :: w ++ [')']] ∧
    ∀ x ∈ w, isSpaceRune x = true

theorem prepIf_none {d : Directive} : prepIf d = none ↔ d.directive = c!"if" ∧ ∃ w, d.args = ['(' :: w ++ [')']] ∧ ∀ x ∈ w, isSpaceRune x = true := by
  rw [← prepareIfArgs_none]
  by_cases h : d.directive = c!"if"
  · unfold prepIf; simp [h]
  · rw [prepIf_other h]; simp [h]

theorem step_panic_iff {env : Env} {o : ParseOptions} {configDir file : Str} {ctx : Ctx} {t : Tok} {toks : List Tok} {ps : PS} :
    (∃ toks2 ps2, step env o configDir file ctx t toks ps = .fail none toks2 ps2) ↔ EmptyIf o file ctx t toks := by
  constructor
  · rintro ⟨toks2, ps2, hs⟩
    have hc := step_cases env o configDir file ctx t toks ps
    rw [hs] at hc
    cases hc with
    | panic args comments term rest R h1 h2 h3 h4 =>
      obtain ⟨h5, w, h6, h7⟩ := prepIf_none.mp h4
      exact ⟨args, comments, term, _, w, R, h1, h2, h3, h5, h6, h7⟩
  · rintro ⟨args, comments, term, rest, w, R, h1, h2, h3, h4, h5, h6⟩
    exact ⟨_, _, (StepR.panic (env := env) args comments term rest R h1 h2 h3 (prepIf_none.mpr ⟨h4, w, h5, h6⟩)).step_eq⟩

/-- C13, the exact condition: `Parse` panics iff the parser comes to an accepted `if` with nothing between its parentheses. -/
theorem C13_partial {env : Env} (hperm : ∀ l, (env.mapOrder l).Perm l) {fuel : Nat} {filename : Str} {o : ParseOptions}
    (hterm : Parse env fuel filename o ≠ .fuel) :
    Parse env fuel filename o = .panic ↔
      ∃ file ctx t toks ps, FilesVisits env o (env.dir filename) (initPS filename) file ctx t toks ps ∧ EmptyIf o file ctx t toks := by
  rcases Parse_cases hperm fuel filename o with ⟨cs, ps', h1, h2⟩ | ⟨e, ps', h1, h2⟩ | ⟨ps', h1, h2⟩
  · constructor
    · intro h
      rcases h2 with ⟨-, h2⟩ | ⟨-, p, h2⟩ <;> (rw [h] at h2; cases h2)
    · rintro ⟨file, ctx, t, toks, ps, hv, he⟩
      obtain ⟨_, _, hs⟩ := step_panic_iff.mpr he
      exact absurd hs ((FilesOk.visits hv h1).1 _ _)
  · constructor
    · intro h
      rw [h] at h2
      cases e with
      | some e => cases h2
      | none =>
        rcases h1.origin with ⟨_, _, _, _, _, _, _, _, h⟩ | ⟨file, ctx, t, toks, ps1, toks2, ps2, hv, hs, -⟩
        · cases h
        · exact ⟨file, ctx, t, toks, ps1, hv, step_panic_iff.mp ⟨_, _, hs⟩⟩
    · rintro ⟨file, ctx, t, toks, ps, hv, he⟩
      obtain ⟨_, _, hs⟩ := step_panic_iff.mpr he
      rw [h2, FilesFail.visits hv hs h1]; rfl
  · exact absurd h2 hterm

/-- C13 is false: `if "( )" {}` inside a server passes all checks and makes `Parse` panic. -/
theorem C13_false : ∃ (env : Env) (filename : Str) (o : ParseOptions), (∀ l, (env.mapOrder l).Perm l) ∧
    ∀ fuel, 2 ≤ fuel → Parse env fuel filename o = .panic := by
  refine ⟨exEnv [(c!"/e/n", c!"http{server{if \"( )\" {}}}")], c!"/e/n", exOpts, fun l => List.Perm.refl _, fun fuel hf => ?_⟩
  have h : Parse (exEnv [(c!"/e/n", c!"http{server{if \"( )\" {}}}")]) 2 c!"/e/n" exOpts = .panic := by decide +kernel
  rw [C14_fuel (fuel := 2) (by rw [h]; simp) hf, h]

/-- With something between the parentheses there is no panic. -/
example : Parse (exEnv [(c!"/e/n", c!"http{server{if \"( x)\" {}}}")]) 2 c!"/e/n" exOpts =
    .ok (okPayload [(c!"/e/n", [blk c!"http" 1 [] [blk c!"server" 1 [] [blk c!"if" 1 [c!"x"] []]]])]) := by decide +kernel

/-! ## C20 -/

/-- Every file of the worklist is the first one or was included. -/
theorem known_rel (filename : Str) (o : ParseOptions) (file : Str) : StateRel o file (fun a b =>
    (∀ v ∈ a.included.map (·.1), v = filename ∨ ∃ u, a.Edge u v) → ∀ v ∈ b.included.map (·.1), v = filename ∨ ∃ u, b.Edge u v) where
  refl ps := id
  trans h1 h2 := fun h => h2 (h1 h)
  err ps e := id
  opens ps := id
  globs ps := id
  add ctx stmt ps f := by
    intro h v hv
    have hmono := (edge_rel o file).add ctx stmt ps f
    have hnew : (addInclude file ctx stmt ps f).2.Edge file f := by
      have := addIncludes_edges file ctx stmt ps [f] file
      unfold addIncludes addIncludes at this
      unfold PS.Edge
      rw [this]; simp
    have hkeys : v ∈ ps.included.map (·.1) ∨ v = f := by
      unfold addInclude at hv
      cases hl : ps.included.lookup f with
      | some i => rw [hl] at hv; exact Or.inl hv
      | none =>
        rw [hl] at hv
        simpa using hv
    rcases hkeys with hk | rfl
    · rcases h v hk with h | ⟨u, h⟩
      · exact Or.inl h
      · exact Or.inr ⟨u, hmono _ _ h⟩
    · exact Or.inr ⟨file, hnew⟩
  enter stmt ctx ps := by
    unfold enterBlockCtx
    split
    · exact id
    · split <;> exact id

theorem FilesMore.known {env : Env} {o : ParseOptions} {configDir filename : Str} {n : Nat} {ps ps' : PS} (h : FilesMore env o configDir n ps ps')
    (hk : ∀ v ∈ ps.included.map (·.1), v = filename ∨ ∃ u, ps.Edge u v) : ∀ v ∈ ps'.included.map (·.1), v = filename ∨ ∃ u, ps'.Edge u v := by
  induction h with
  | zero => exact hk
  | ok n ps incl rest data ds toks' ps1 ps' hi ho hr hf ih => exact ih ((known_rel filename o incl.path).runOk hr hk)
  | bad n ps incl rest data e toks' ps1 ps' hi ho hr hs hf ih =>
    exact ih ((known_rel filename o incl.path).err _ e ((known_rel filename o incl.path).runFail hr hk))

theorem FilesMore.edges {env : Env} {o : ParseOptions} {configDir : Str} {n : Nat} {ps ps' : PS} (h : FilesMore env o configDir n ps ps')
    (u v : Str) (he : ps'.Edge u v) : ps.Edge u v ∨ FileIncludes env o configDir ps u v := by
  induction h with
  | zero => exact Or.inl he
  | ok n ps incl rest data ds toks' ps1 ps' hi ho hr hf ih =>
    rcases ih he with h | ⟨ctx, t, toks, ps2, names, hv, h1, h2⟩
    · rcases (hr.edges u v).mp h with h | ⟨rfl, ctx, t, toks, ps2, names, hv, h1, h2⟩
      · exact Or.inl h
      · exact Or.inr ⟨ctx, t, toks, ps2, names, .here _ _ _ _ _ _ _ _ hi ho hv, h1, h2⟩
    · exact Or.inr ⟨ctx, t, toks, ps2, names, .ok _ _ _ _ _ _ _ _ _ _ _ _ hi ho hr hv, h1, h2⟩
  | bad n ps incl rest data e toks' ps1 ps' hi ho hr hs hf ih =>
    rcases ih he with h | ⟨ctx, t, toks, ps2, names, hv, h1, h2⟩
    · rcases (hr.edges u v).mp h with h | ⟨rfl, ctx, t, toks, ps2, names, hv, h1, h2⟩
      · exact Or.inl h
      · exact Or.inr ⟨ctx, t, toks, ps2, names, .here _ _ _ _ _ _ _ _ hi ho hv, h1, h2⟩
    · exact Or.inr ⟨ctx, t, toks, ps2, names, .bad _ _ _ _ _ _ _ _ _ _ _ _ hi ho hr hs hv, h1, h2⟩

/-- C20.  Without StopParsingOnError the error of `Parse` is that of opening the first file or a file some file includes, or the
cycle error for a cycle. -/
theorem C20_error {env : Env} (hperm : ∀ l, (env.mapOrder l).Perm l) {fuel : Nat} {filename : Str} {o : ParseOptions}
    (hstop : o.stopParsingOnError = false) {e : GoErr} (h : Parse env fuel filename o = .err e) :
    (∃ k f, env.openFile k f = .error e ∧ (f = filename ∨ ∃ u, FileIncludes env o (env.dir filename) (initPS filename) u f)) ∨
    (e = cycleError ∧ ∃ a, Relation.TransGen (FileIncludes env o (env.dir filename) (initPS filename)) a a) := by
  rcases Parse_cases hperm fuel filename o with ⟨cs, ps', h1, ⟨ha, h2⟩ | ⟨-, p, h2⟩⟩ | ⟨e', ps', h1, h2⟩ | ⟨ps', h1, h2⟩
  · rw [h] at h2
    cases h2
    exact Or.inr ⟨rfl, (h1.acyclic_iff hperm).1.mp ha⟩
  · rw [h] at h2; cases h2
  · rw [h] at h2
    cases e' with
    | none => cases h2
    | some e' =>
      cases h2
      rcases h1.origin with ⟨n, ps1, incl, rest, err, hm, hi, ho, he⟩ | ⟨_, _, _, _, _, _, _, _, _, h | h⟩
      · cases he
        refine Or.inl ⟨_, _, ho, ?_⟩
        obtain ⟨fs, -, ht, -⟩ := hm.table (init_table filename)
        rcases hm.known (filename := filename) (by simp [initPS]) incl.path (by rw [ht.keys]; simp [PS.paths, hi]) with hk | ⟨u, hk⟩
        · exact Or.inl hk
        · rcases hm.edges u _ hk with hk | hk
          · simp [PS.Edge, outEdges, initPS] at hk
          · exact Or.inr ⟨u, hk⟩
      · cases h
      · rw [hstop] at h; cases h
  · rw [h] at h2; cases h2

/-- The mistakes a round of the parser can meet, with the error for each. -/
inductive RoundError (env : Env) (o : ParseOptions) (configDir file : Str) (ctx : Ctx) (t : Tok) (toks : List Tok) (ps : PS) : GoErr → Prop
  | token (e) : t.error = some e → RoundError env o configDir file ctx t toks ps (tokenError file ctx.vals t e)
  | premature : t.error = none → t.is c!"}" = false → t.isCommentTok = false → readArgs o.parseComments [] [] toks = none →
      RoundError env o configDir file ctx t toks ps (prematureError file ctx.vals t.line)
  | map (args comments term rest m err) : Reads o t toks args comments term rest → mapCtx ctx.vals = some m →
      analyzeMapBody file (baseStmt o file t args) term.value m = some err → RoundError env o configDir file ctx t toks ps (.parse err)
  | rejected (args comments term rest err) : Reads o t toks args comments term rest → mapCtx ctx.vals = none →
      contains o.ignoreDirectives t.value = false → analyze file (baseStmt o file t args) term.value ctx.vals o = some err →
      RoundError env o configDir file ctx t toks ps (.parse err)
  | noArgs (comments term rest) : Reads o t toks [] comments term rest → mapCtx ctx.vals = none →
      contains o.ignoreDirectives t.value = false → analyze file (baseStmt o file t []) term.value ctx.vals o = none →
      o.singleFile = false → t.value = c!"include" → RoundError env o configDir file ctx t toks ps (includeArgsError file ctx.vals (baseStmt o file t []))
  | glob (a as comments term rest e) : Reads o t toks (a :: as) comments term rest → mapCtx ctx.vals = none →
      contains o.ignoreDirectives t.value = false → analyze file (baseStmt o file t (a :: as)) term.value ctx.vals o = none →
      o.singleFile = false → t.value = c!"include" → hasMagic (resolve env configDir a) = true → env.glob ps.globs (resolve env configDir a) = .error e →
      RoundError env o configDir file ctx t toks ps e
  | openFile (a as comments term rest e) : Reads o t toks (a :: as) comments term rest → mapCtx ctx.vals = none →
      contains o.ignoreDirectives t.value = false → analyze file (baseStmt o file t (a :: as)) term.value ctx.vals o = none →
      o.singleFile = false → t.value = c!"include" → hasMagic (resolve env configDir a) = false → env.openFile ps.opens (resolve env configDir a) = .error e →
      RoundError env o configDir file ctx t toks ps (.parse (stmtError e.error file (baseStmt o file t (a :: as)) (getLastBlock ctx.vals)))

theorem step_fail_inclFail {env : Env} {o : ParseOptions} {configDir file : Str} {ctx : Ctx} {t : Tok} {toks : List Tok} {ps : PS}
    {args comments : List Str} {term : Tok} {rest : List Tok} (R : Reads o t toks args comments term rest) (hm : mapCtx ctx.vals = none)
    (hi : contains o.ignoreDirectives t.value = false) (ha : analyze file (baseStmt o file t args) term.value ctx.vals o = none)
    (hv : t.value = c!"include") {e : GoErr} {ps' : PS} (hd : doInclude env o configDir file ctx (baseStmt o file t args) ps = (.err e, ps')) :
    step env o configDir file ctx t toks ps = .fail (some e) rest ps' :=
  (StepR.inclFail args comments term rest _ e ps' R hm hi ha (prepIf_other (by rw [baseStmt_directive, hv]; decide)) hd).step_eq

/-- C20.  Without StopParsingOnError every mistake at a round the parser comes to is recorded in the payload, with the file and line. -/
theorem C20_recorded {env : Env} {fuel : Nat} {filename : Str} {o : ParseOptions} {p : Payload} (h : Parse env fuel filename o = .ok p)
    (hstop : o.stopParsingOnError = false) {file : Str} {ctx : Ctx} {t : Tok} {toks : List Tok} {ps : PS}
    (hv : FilesVisits env o (env.dir filename) (initPS filename) file ctx t toks ps) {e : GoErr}
    (he : RoundError env o (env.dir filename) file ctx t toks ps e) :
    ∃ pe ∈ p.errors, pe.error = e ∧ pe.file = file ∧ pe.line = e.line? := by
  obtain ⟨cs, ps', hf, hp⟩ := Parse_errors h
  rw [hp]
  obtain ⟨-, h1, h2⟩ := FilesOk.visits hv hf
  have recorded : ∀ ps1, (step env o (env.dir filename) file ctx t toks ps).ps = handleError o file ps1 e →
      ∃ pe ∈ ps'.payErrors, pe.error = e ∧ pe.file = file ∧ pe.line = e.line? := by
    intro ps1 hps
    rw [hps] at h2
    exact ⟨_, h2.subset (List.mem_append_right _ (List.mem_singleton.mpr rfl)), rfl, rfl, rfl⟩
  cases he with
  | token e he => exact (h1 _ _ _ (StepR.tokErr e he).step_eq).2
  | premature a b c d => exact (h1 _ _ _ (StepR.premature a b c d).step_eq).2
  | map args comments term rest m err R hm ha =>
    exact recorded _ (by rw [(StepR.mapBad args comments term rest m err R hm ha hstop).step_eq]; rfl)
  | rejected args comments term rest err R hm hi ha =>
    cases hs : hasSuffix err.what notTerminated with
    | false => exact recorded _ (by rw [(StepR.reject args comments term rest err R hm hi ha hstop hs).step_eq]; rfl)
    | true =>
      cases ht : (term.value != c!"}" && !term.quoted) with
      | true => exact recorded _ (by rw [(StepR.rejectSkip args comments term rest err R hm hi ha hstop hs ht).step_eq]; rfl)
      | false => exact recorded _ (by rw [(StepR.rejectStop args comments term rest err R hm hi ha hstop hs ht).step_eq]; rfl)
  | noArgs comments term rest R hm hi ha hsf hvl =>
    refine (h1 _ _ _ (step_fail_inclFail R hm hi ha hvl (ps' := ps) ?_)).2
    unfold doInclude
    rw [if_pos (by simp [hsf, baseStmt, hvl])]
    rfl
  | glob a as comments term rest _ R hm hi ha hsf hvl hmag hg =>
    refine (h1 _ _ _ (step_fail_inclFail R hm hi ha hvl (ps' := { ps with globs := ps.globs + 1 }) ?_)).2
    unfold doInclude
    rw [if_pos (by simp [hsf, baseStmt, hvl])]
    simp only [baseStmt]
    rw [← resolve, if_pos hmag, hg]
  | openFile a as comments term rest e R hm hi ha hsf hvl hmag ho =>
    have hd : doInclude env o (env.dir filename) file ctx (baseStmt o file t (a :: as)) ps = (.ok (baseStmt o file t (a :: as)),
        handleError o file { ps with opens := ps.opens + 1 } (.parse (stmtError e.error file (baseStmt o file t (a :: as)) (getLastBlock ctx.vals)))) := by
      unfold doInclude
      rw [if_pos (by simp [hsf, baseStmt, hvl])]
      simp only [baseStmt]
      rw [← resolve, if_neg (by simp [hmag]), ho]
      simp only [hstop, Bool.not_false, if_true]
    have hpi : prepIf (baseStmt o file t (a :: as)) = some (baseStmt o file t (a :: as)) := prepIf_other (by rw [baseStmt_directive, hvl]; decide)
    cases hb : term.is c!"{" with
    | true => exact recorded _ (by rw [(StepR.block _ comments term rest _ _ _ R hm hi ha hpi hd hb).step_eq]; rfl)
    | false => exact recorded _ (by rw [(StepR.simple _ comments term rest _ _ _ R hm hi ha hpi hd hb).step_eq]; rfl)

/-- A missing first file is an error; a missing included file is recorded. -/
example : Parse (exEnv []) 1 c!"/e/n" exOpts = .err (.other c!"open /e/n: no such file or directory") ∧
    Parse (exEnv [(c!"/e/n", c!"user x;\ninclude a;")]) 2 c!"/e/n" exOpts = .ok (badPayload c!"/e/n" 2
      (serr c!"open /e/a: no such file or directory" c!"/e/n" 2 c!"include a" c!"main") [dir c!"user" 1 [c!"x"], dir c!"include" 2 [c!"a"]]) := by
  decide +kernel

end Verif
