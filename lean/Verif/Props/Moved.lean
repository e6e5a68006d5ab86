import Verif.Proofs.Moved
import Verif.Props.Include
import Verif.Props.EnvProps
import Verif.Props.Ex
/-!
# C89: a configuration can be moved
-/
namespace Verif
open Spec

theorem Spec.MovedErr.noOrder {ρ : Str → Str} {env env' : Env} {e e' : GoErr} (h : MovedErr ρ { env with mapOrder := id } { env' with mapOrder := id } e e') : MovedErr ρ env env' e e' := by
  cases h with
  | parse => exact .parse
  | named => exact .named
  | missing h1 h2 => exact .missing h1 h2
  | noFile h1 h2 => exact .noFile h1 h2
  | pattern h1 h2 => exact .pattern h1 h2
  | cycle => exact .cycle

/-- C89.  The files of a configuration are put to new paths `ρ`, different files to different ones, and the patterns of their include directives stand for the new paths.  Then Parse gives
the same result: the same directives with the same lines and the same indices of included files, the configs in the same order with the same statuses, the same errors, with the new paths in
place of the old ones.  (The texts of errors of the file system may differ, and what a callback made of an error.) -/
theorem C89_moved {ρ : Str → Str} {env env' : Env} {o : ParseOptions} {filename : Str} (hM : MovedFiles ρ o env env' (env.dir filename) (env'.dir (ρ filename))) (fuel : Nat) :
    MovedRes (MovedErr ρ env env') (MovedPayload (MovedErr ρ env env') ρ (if o.combineConfigs then ρ else id)) (Parse env fuel filename o) (Parse env' fuel (ρ filename) o) := by
  rw [← C16_map_order hM.order id (fun _ => .refl _) fuel filename o, ← C16_map_order hM.order' id (fun _ => .refl _) fuel (ρ filename) o]
  have key := Parse_mv (env := { env with mapOrder := id }) (env' := { env' with mapOrder := id }) (o := o) (filename := filename) (dir := env.dir filename) (dir' := env'.dir (ρ filename))
    ⟨hM.inj, hM.files, hM.globs, hM.patterns, fun _ => .refl _, fun _ => .refl _⟩ rfl rfl rfl rfl fuel
  rw [show (if o.combineConfigs then ρ else id) = tagOf o ρ from rfl]
  generalize Parse { env with mapOrder := id } fuel filename o = r at key ⊢
  generalize Parse { env' with mapOrder := id } fuel (ρ filename) o = r' at key ⊢
  cases key with
  | ok h =>
    refine .ok ⟨h.status, h.errors.imp fun _ _ h => ⟨h.1, h.2.1.noOrder, h.2.2⟩, h.config.imp fun _ _ h => ⟨h.file, h.status, h.errors.imp fun _ _ h => ⟨h.1.noOrder, h.2⟩, h.parsed⟩⟩
  | err h => exact .err h.noOrder
  | panic => exact .panic
  | fuel => exact .fuel

/-! ## Another directory -/

theorem strLt_under (root a b : Str) : strLt (root ++ a) (root ++ b) = strLt a b := by
  induction root with
  | nil => rfl
  | cons c root ih => simp [strLt, ih]

/-- The order of paths in a directory does not depend on where the directory is. -/
theorem sortStrings_under (root : Str) (l : List Str) : sortStrings (l.map (root ++ ·)) = (sortStrings l).map (root ++ ·) := by
  induction l with
  | nil => rfl
  | cons x l ih =>
    simp only [List.map_cons, sortStrings, ih]
    generalize sortStrings l = m
    induction m with
    | nil => rfl
    | cons y m ihm =>
      simp only [List.map_cons, insertSorted, strLt_under]
      split
      · rw [List.map_cons, ihm]
      · rfl

theorem hasMagic_under {root : Str} (h : hasMagic root = false) (p : Str) : hasMagic (root ++ p) = hasMagic p := by
  unfold hasMagic at h ⊢
  rw [List.any_append, h, Bool.false_or]

/-- C89.  A whole directory tree is put under `root`, whose name has no `*`, `?` or `[`; the patterns of the include directives are relative, and `join` of the new
directory of the configuration and such a pattern is `root` before the old `join`.  Then Parse gives the same result with `root` before all paths. -/
theorem C89_directory {root : Str} {env env' : Env} {o : ParseOptions} {filename : Str} (hroot : hasMagic root = false)
    (hfiles : ∀ k f d, env.openFile k f = .ok d ↔ env'.openFile k (root ++ f) = .ok d)
    (hglob : ∀ k q, env'.glob k (root ++ q) = (env.glob k q).map (List.map (root ++ ·)))
    (hrel : ∀ k f d, env.openFile k f = .ok d → ∀ p, PatternIn (lexWith (extLexersOf o.lexers) d.runes) p →
      env.isAbs p = false ∧ env'.isAbs p = false ∧ env'.join (env'.dir (root ++ filename)) p = root ++ env.join (env.dir filename) p)
    (horder : ∀ l, (env.mapOrder l).Perm l) (horder' : ∀ l, (env'.mapOrder l).Perm l) (fuel : Nat) :
    MovedRes (MovedErr (root ++ ·) env env') (MovedPayload (MovedErr (root ++ ·) env env') (root ++ ·) (if o.combineConfigs then (root ++ ·) else id)) (Parse env fuel filename o)
      (Parse env' fuel (root ++ filename) o) := by
  refine C89_moved (ρ := (root ++ ·)) ⟨fun a b h => List.append_cancel_left h, ?_, ?_, ?_, horder, horder'⟩ fuel
  · intro k f
    cases h : env.openFile k f with
    | ok d => exact .inl ⟨d, rfl, (hfiles k f d).mp h⟩
    | error x =>
      cases h' : env'.openFile k (root ++ f) with
      | ok d => rw [(hfiles k f d).mpr h'] at h; cases h
      | error x' => exact .inr ⟨x, x', rfl, rfl⟩
  · intro k q
    have := hglob k q
    cases h : env.glob k q with
    | ok l => rw [h] at this; exact .inl ⟨l, rfl, this, sortStrings_under root l⟩
    | error x => rw [h] at this; exact .inr ⟨x, x, rfl, this, rfl⟩
  · intro k f d hd p hp
    obtain ⟨h1, h2, hjoin⟩ := hrel k f d hd p hp
    unfold patternPath
    rw [h1, h2]
    exact ⟨hjoin, hasMagic_under hroot _⟩

/-- A pattern is the value of a token. -/
theorem Spec.PatternIn.mem {toks : List Tok} {p : Str} (h : PatternIn toks p) : ∃ t ∈ toks, t.value = p := by
  obtain ⟨pre, t, mid, u, post, rfl, -, -, h4⟩ := h
  exact ⟨u, by simp, h4⟩

theorem lookup_text {files : List (Str × Str)} {f t : Str} (h : files.lookup f = some t) : ∃ x ∈ files, x.2 = t := by
  induction files with
  | nil => cases h
  | cons e files ih =>
    obtain ⟨n, u⟩ := e
    rw [List.lookup_cons] at h
    split at h
    · exact ⟨_, List.mem_cons_self .., Option.some.inj h⟩
    · obtain ⟨x, hm, hx⟩ := ih h
      exact ⟨x, List.mem_cons_of_mem _ hm, hx⟩

/-- The files of the examples under another root. -/
def exMoved (root : Str) (files : List (Str × Str)) : Env := { exEnv (files.map fun x => (root ++ x.1, x.2)) with dir := fun _ => root ++ c!"/e" }

/-- Files with relative include directives only. -/
theorem exMoved_same {root : Str} {files : List (Str × Str)} {o : ParseOptions} {filename : Str} (hroot : hasMagic root = false)
    (hrel : ∀ x ∈ files, ∀ t ∈ lexWith (extLexersOf o.lexers) x.2, hasPrefix t.value c!"/" = false) (fuel : Nat) :
    MovedRes (MovedErr (root ++ ·) (exEnv files) (exMoved root files)) (MovedPayload (MovedErr (root ++ ·) (exEnv files) (exMoved root files)) (root ++ ·)
      (if o.combineConfigs then (root ++ ·) else id)) (Parse (exEnv files) fuel filename o) (Parse (exMoved root files) fuel (root ++ filename) o) := by
  have hl : ∀ f, (files.map fun x => (root ++ x.1, x.2)).lookup (root ++ f) = files.lookup f := by
    intro f
    have := lookup_mv (ρ := (root ++ ·)) (fun a b h => List.append_cancel_left h) (fun t : Str => t) files f
    rw [Option.map_id'] at this
    exact this
  have hopen : ∀ k f d, (exEnv files).openFile k f = .ok d ↔ files.lookup f = some d.runes ∧ d = { runes := d.runes } := by
    intro k f d
    show (match files.lookup f with | some text => Except.ok ({ runes := text } : FileData) | none => .error _) = _ ↔ _
    cases files.lookup f with
    | none => simp
    | some t => simp only [Except.ok.injEq, Option.some.injEq]; constructor
                · rintro rfl; exact ⟨rfl, rfl⟩
                · rintro ⟨rfl, h⟩; exact h.symm
  refine C89_directory hroot (fun k f d => ?_) (fun k q => ?_) (fun k f d hd p hp => ?_) (fun _ => .refl _) (fun _ => .refl _) fuel
  · rw [hopen]
    show _ ↔ (exEnv (files.map fun x => (root ++ x.1, x.2))).openFile k (root ++ f) = _
    show _ ↔ (match (files.map fun x => (root ++ x.1, x.2)).lookup (root ++ f) with | some text => Except.ok ({ runes := text } : FileData) | none => .error _) = _
    rw [hl, ← hopen k f d]
    show (match files.lookup f with | some text => Except.ok ({ runes := text } : FileData) | none => .error _) = _ ↔ _
    cases files.lookup f with
    | none => simp
    | some t => rfl
  · show Except.ok ((files.map fun x => (root ++ x.1, x.2)).map (·.1)).reverse = Except.ok ((files.map (·.1)).reverse.map (root ++ ·))
    rw [List.map_reverse, List.map_map, List.map_map]
    rfl
  · obtain ⟨t, ht, rfl⟩ := hp.mem
    obtain ⟨h1, -⟩ := (hopen k f d).mp hd
    obtain ⟨x, hm, hx⟩ := lookup_text h1
    rw [← hx] at ht
    refine ⟨hrel _ hm t ht, hrel _ hm t ht, ?_⟩
    show root ++ c!"/e" ++ c!"/" ++ t.value = root ++ (c!"/e" ++ c!"/" ++ t.value)
    simp

/-- Two files that include a third one, put under `/srv`. -/
example : MovedRes (MovedErr (c!"/srv" ++ ·) (exEnv [(c!"/e/main", c!"http { include b; include c; }"), (c!"/e/b", c!"server { include c; }"), (c!"/e/c", c!"listen;")])
        (exMoved c!"/srv" [(c!"/e/main", c!"http { include b; include c; }"), (c!"/e/b", c!"server { include c; }"), (c!"/e/c", c!"listen;")]))
    (MovedPayload (MovedErr (c!"/srv" ++ ·) (exEnv [(c!"/e/main", c!"http { include b; include c; }"), (c!"/e/b", c!"server { include c; }"), (c!"/e/c", c!"listen;")])
        (exMoved c!"/srv" [(c!"/e/main", c!"http { include b; include c; }"), (c!"/e/b", c!"server { include c; }"), (c!"/e/c", c!"listen;")])) (c!"/srv" ++ ·) id)
    (Parse (exEnv [(c!"/e/main", c!"http { include b; include c; }"), (c!"/e/b", c!"server { include c; }"), (c!"/e/c", c!"listen;")]) 9 c!"/e/main" exOpts)
    (Parse (exMoved c!"/srv" [(c!"/e/main", c!"http { include b; include c; }"), (c!"/e/b", c!"server { include c; }"), (c!"/e/c", c!"listen;")]) 9 c!"/srv/e/main" exOpts) :=
  exMoved_same (root := c!"/srv") (o := exOpts) (filename := c!"/e/main")
    (files := [(c!"/e/main", c!"http { include b; include c; }"), (c!"/e/b", c!"server { include c; }"), (c!"/e/c", c!"listen;")]) (by decide) (by decide +kernel) 9

/-- The error of an include directive without its file. -/
def exAbsent : GoErr := .parse { what := c!"open /e/b: no such file or directory", file := some c!"/srv/e/main", line := some 1, statement := c!"include /e/b", blockCtx := c!"main" }

/-- C89, the boundary.  With an absolute path in an include directive the moved configuration is another one: here the file is not found. -/
theorem C89_false_absolute : ∃ files p p', Parse (exEnv files) 9 c!"/e/main" exOpts = .ok p ∧ p.status = c!"ok" ∧
    Parse (exMoved c!"/srv" files) 9 c!"/srv/e/main" exOpts = .ok p' ∧ p'.status = c!"failed" :=
  ⟨[(c!"/e/main", c!"include /e/b;"), (c!"/e/b", c!"")],
    ⟨c!"ok", [], [⟨c!"/e/main", c!"ok", [], [{ directive := c!"include", line := 1, args := [c!"/e/b"], includes := some [1] }]⟩, ⟨c!"/e/b", c!"ok", [], []⟩]⟩,
    ⟨c!"failed", [⟨c!"/srv/e/main", some 1, exAbsent, none⟩], [⟨c!"/srv/e/main", c!"failed", [⟨some 1, exAbsent⟩], [dir c!"include" 1 [c!"/e/b"]]⟩]⟩,
    by decide +kernel, rfl, by decide +kernel, rfl⟩

end Verif
