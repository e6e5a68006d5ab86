import Verif.Proofs.Grammar
/-!
# C70: the parser accepts exactly the configurations of the grammar

`Conf` (Spec/Grammar) says which sequences of tokens are a configuration and which tree they stand for.
-/
namespace Verif
open Spec

/-- C24 without a condition on the names of the blocks: a statement is accepted iff it is acceptable in its context, where a `>` in the name of a block
counts as a nesting. -/
theorem C24_accepts_exactly (fname : Str) (stmt : Directive) (term : Str) (ctx : List Str) (o : ParseOptions) :
    analyze fname stmt term ctx o = none ↔
    StmtOk (if o.directiveSources = [] then [defaultDirectivesMatch] else o.directiveSources)
      o.errorOnUnknownDirectives o.skipDirectiveContextCheck o.skipDirectiveArgsCheck (contextBit (pathOf ctx))
      stmt.directive stmt.args term :=
  analyze_rules fname stmt term ctx o

/-- A block named `http>server` is taken for a `server` within `http`: `listen` is accepted in it. -/
example : pathOf [c!"http>server"] = [c!"http", c!"server"] ∧
    analyze c!"n" { directive := c!"listen", line := 1, args := [c!"80"] } c!";" [c!"http>server"] {} = none := by decide +kernel

/-- What is assumed: nothing combined, includes not followed, the file can be read. -/
structure OneFile (env : Env) (filename : Str) (o : ParseOptions) (data : FileData) : Prop where
  perm : ∀ l, (env.mapOrder l).Perm l
  combine : o.combineConfigs = false
  alone : o.singleFile = true ∨ ∀ t ∈ fileToks o data, t.value ≠ c!"include"
  opens : env.openFile 0 filename = .ok data

/-- C70 (completeness).  A file that is a configuration of the grammar is parsed without an error, and the payload has the tree the grammar gives. -/
theorem C70_complete {env : Env} {fuel : Nat} {filename : Str} {o : ParseOptions} {data : FileData} (ho : OneFile env filename o data) (hf : 2 ≤ fuel)
    {ds : List Directive} (he : ∀ t ∈ fileToks o data, t.error = none) (hc : Conf (rulesOf o) [] ds (fileToks o data)) :
    Parse env fuel filename o = .ok (okPayload [(filename, ds)]) := by
  obtain ⟨ps', h1, h2⟩ := hc.run (env := env) (configDir := env.dir filename) (file := filename) ho.combine { vals := [], arr := 0, cap := 0 }
    (startFile (initPS filename) []) [] [] rfl rfl ho.alone he (Or.inl ⟨rfl, rfl⟩)
  rw [List.append_nil] at h1
  exact Parse_one ho.perm hf ho.combine ho.opens h1 h2

/-- C70 (soundness).  If the payload is ok, the file is a configuration of the grammar, if its tokens are statements without errors; without external lexers and
IgnoreDirectives it is enough that the file does not start with `{` or `;`, and has no directive that is not known and ended by the `}` of its block; there the
parser accepts more (`C70_false_start`, `C70_false_end`). -/
theorem C70_sound {env : Env} {fuel : Nat} {filename : Str} {o : ParseOptions} {data : FileData} (ho : OneFile env filename o data) (hf : 2 ≤ fuel)
    (hform : Formed o data) {p : Payload} (h : Parse env fuel filename o = .ok p)
    (hs : p.status = c!"ok") :
    (∀ t ∈ fileToks o data, t.error = none) ∧ ∃ ds, Conf (rulesOf o) [] ds (fileToks o data) ∧ p = okPayload [(filename, ds)] := by
  obtain ⟨cs, ps', hok, -, hraw, -⟩ := Parse_ok h
  have hp := hraw ho.combine
  have he : ps'.payErrors = [] := by
    rcases (C17_status h).1 with ⟨h1, -⟩ | ⟨-, h1⟩
    · rw [hs] at h1; simp at h1
    · rw [hp] at h1; exact h1
  have hdone : (∀ t ∈ fileToks o data, t.error = none) ∧ ∃ ds, Conf (rulesOf o) [] ds (fileToks o data) := by
    cases hok with
    | nil _ hi => cases hi
    | bad _ _ _ _ _ _ _ _ _ hi' ho' hr hs hf =>
      have := hf.errors_grow
      rw [he, List.prefix_nil] at this
      simp [handleError] at this
    | ok _ incl rest data' ds toks' ps1 cs' _ hi' ho' hr hf =>
      cases hi'
      have ho' : env.openFile 0 filename = .ok data' := ho'
      rw [ho.opens] at ho'; cases ho'
      have g1 := hf.errors_grow
      rw [he, List.prefix_nil] at g1
      have g2 := (payErrors_rel o filename).runOk hr
      rw [g1, List.prefix_nil] at g2
      obtain ⟨k1, k2⟩ := hr.file_conf ho.combine (by rw [g1, g2]) hform (fun _ => some []) (fun _ _ _ _ _ _ _ _ _ => rfl)
      exact ⟨k1, _, k2⟩
  obtain ⟨hne, hdone⟩ := hdone
  refine ⟨hne, ?_⟩
  obtain ⟨ds, hds⟩ := hdone
  refine ⟨ds, hds, ?_⟩
  rw [C70_complete ho hf hne hds] at h
  cases h; rfl

theorem C70_sound_tree {env : Env} {fuel : Nat} {filename : Str} {o : ParseOptions} {data : FileData} (ho : OneFile env filename o data) (hf : 2 ≤ fuel)
    (hform : Formed o data) {ds : List Directive} (h : Parse env fuel filename o = .ok (okPayload [(filename, ds)])) :
    (∀ t ∈ fileToks o data, t.error = none) ∧ Conf (rulesOf o) [] ds (fileToks o data) := by
  obtain ⟨he, ds', hc, hp⟩ := C70_sound ho hf hform h rfl
  refine ⟨he, ?_⟩
  simp only [okPayload, List.map_cons, List.map_nil, Payload.mk.injEq, List.cons.injEq, Config.mk.injEq, true_and, and_true] at hp
  rw [hp]; exact hc

/-- C70.  Whatever lexers are registered and whatever is ignored: the file is a configuration of the grammar, with the tree `ds`, iff it is parsed without an
error, with the tree `ds`, and its tokens are statements without errors. -/
theorem C70_exact {env : Env} {fuel : Nat} {filename : Str} {o : ParseOptions} {data : FileData} (ho : OneFile env filename o data) (hf : 2 ≤ fuel)
    (ds : List Directive) :
    ((∀ t ∈ fileToks o data, t.error = none) ∧ Conf (rulesOf o) [] ds (fileToks o data)) ↔
    Parse env fuel filename o = .ok (okPayload [(filename, ds)]) ∧ (∀ t ∈ fileToks o data, t.error = none) ∧ Shape (fileToks o data) := by
  constructor
  · rintro ⟨he, hc⟩
    exact ⟨C70_complete ho hf he hc, he, hc.shape⟩
  · rintro ⟨h, h1, h2⟩
    exact C70_sound_tree ho hf (Or.inl ⟨h1, h2⟩) h

/-- C70.  Without external lexers and IgnoreDirectives the file is a configuration of the grammar, with the tree `ds`, iff it is parsed without an error, with the
tree `ds`, starts with a word and has every statement ended by `;` or a block. -/
theorem C70_exact_lexed {env : Env} {fuel : Nat} {filename : Str} {o : ParseOptions} {data : FileData} (ho : OneFile env filename o data) (hf : 2 ≤ fuel)
    (hl : o.lexers = []) (hi : o.ignoreDirectives = []) (ds : List Directive) :
    ((∀ t ∈ lex data.runes, t.error = none) ∧ Conf (rulesOf o) [] ds (lex data.runes)) ↔
    Parse env fuel filename o = .ok (okPayload [(filename, ds)]) ∧ StartsWithWord (lex data.runes) ∧ StatementsEnd (lex data.runes) := by
  have e := fileToks_lex hl data
  constructor
  · rintro ⟨he, hc⟩
    rw [← e] at he hc
    exact ⟨C70_complete ho hf he hc, by rw [← e]; exact hc.shape.starts, by rw [← e]; exact hc.shape.ends⟩
  · rintro ⟨h, h1, h2⟩
    rw [← e]
    exact C70_sound_tree ho hf (Or.inr ⟨hl, hi, h1, h2⟩) h

/-- C70.  Every other file gives an error. -/
theorem C70_rejects {env : Env} {fuel : Nat} {filename : Str} {o : ParseOptions} {data : FileData} (ho : OneFile env filename o data) (hf : 2 ≤ fuel)
    (hform : Formed o data) (hno : ∀ ds, ¬ Conf (rulesOf o) [] ds (fileToks o data))
    {p : Payload} (h : Parse env fuel filename o = .ok p) : p.status = c!"failed" ∧ p.errors ≠ [] := by
  rcases (C17_status h).1 with ⟨h1, h2⟩ | ⟨h1, -⟩
  · exact ⟨h1, h2⟩
  · obtain ⟨-, ds, hc, -⟩ := C70_sound ho hf hform h h1
    exact absurd hc (hno ds)

/-- C70.  The grammar is unambiguous: tokens without an error stand for at most one tree. -/
theorem C70_unique {o : ParseOptions} {ctx : List Str} {ds ds' : List Directive} {toks : List Tok} (he : ∀ t ∈ toks, t.error = none)
    (h : Conf (rulesOf o) ctx ds toks) (h' : Conf (rulesOf o) ctx ds' toks) : ds = ds' := by
  have run := fun ds (h : Conf (rulesOf { o with singleFile := true, combineConfigs := false }) ctx ds toks) =>
    h.run (env := exEnv []) (configDir := []) (file := []) rfl { vals := ctx, arr := 0, cap := 0 } (startFile (initPS []) []) [] [] rfl rfl
      (Or.inl rfl) he (Or.inl ⟨rfl, rfl⟩)
  obtain ⟨ps1, h1, -⟩ := run ds h
  obtain ⟨ps2, h2, -⟩ := run ds' h'
  exact (h1.det h2).1

/-- A configuration of the grammar: a block with a statement, a comment and a map-like block with a parameter. -/
example : Conf (rulesOf { exOpts with parseComments := true }) []
      [blk c!"http" 1 [] [dir c!"root" 2 [c!"/r"], ⟨c!"#", 2, [], [], none, none, some c!"c", false⟩, blk c!"types" 3 [] [param c!"a" 3 [c!"b"]]]]
      (lex c!"http{\nroot #c\n/r;types{a b;}}") ∧
    ∀ t ∈ lex c!"http{\nroot #c\n/r;types{a b;}}", t.error = none := by
  have hl : lex c!"http{\nroot #c\n/r;types{a b;}}" = [⟨c!"http", 1, false, none⟩, ⟨c!"{", 1, false, none⟩, ⟨c!"root", 2, false, none⟩,
      ⟨c!"#c", 2, false, none⟩, ⟨c!"/r", 3, false, none⟩, ⟨c!";", 3, false, none⟩, ⟨c!"types", 3, false, none⟩, ⟨c!"{", 3, false, none⟩,
      ⟨c!"a", 3, false, none⟩, ⟨c!"b", 3, false, none⟩, ⟨c!";", 3, false, none⟩, ⟨c!"}", 3, false, none⟩, ⟨c!"}", 3, false, none⟩] := by
    decide +kernel
  rw [hl]
  have hw : ∀ v line, (⟨v, line, false, none⟩ : Tok).isTerm = false ∧ (⟨v, line, false, none⟩ : Tok).isCommentTok = false →
      WordTok ⟨v, line, false, none⟩ := fun _ _ h => wordTok_iff.mpr h
  have hnm : ∀ c : List Str, mapCtx c = none → ∀ m, ¬ InMap c m := fun c h => mapCtx_none.mp h
  refine ⟨?_, by decide⟩
  refine Conf.block (mid := []) (opening := ⟨c!"{", 1, false, none⟩) (closing := ⟨c!"}", 3, false, none⟩) (toks := []) (ds := [])
    (inner := [⟨c!"root", 2, false, none⟩, ⟨c!"#c", 2, false, none⟩, ⟨c!"/r", 3, false, none⟩, ⟨c!";", 3, false, none⟩, ⟨c!"types", 3, false, none⟩,
      ⟨c!"{", 3, false, none⟩, ⟨c!"a", 3, false, none⟩, ⟨c!"b", 3, false, none⟩, ⟨c!";", 3, false, none⟩, ⟨c!"}", 3, false, none⟩])
    (hnm _ (by decide)) (by decide) (hw _ _ (by decide)) .nil ⟨rfl, rfl⟩
    ((analyze_rules [] { directive := c!"http", line := 1, args := [] } c!"{" [] _).mp (by decide +kernel)) rfl (fun _ => rfl) ?_ ⟨rfl, rfl⟩ .nil
  refine Conf.simple (mid := [⟨c!"#c", 2, false, none⟩, ⟨c!"/r", 3, false, none⟩]) (semi := ⟨c!";", 3, false, none⟩) (texts := [c!"c"])
    (toks := [⟨c!"types", 3, false, none⟩, ⟨c!"{", 3, false, none⟩, ⟨c!"a", 3, false, none⟩, ⟨c!"b", 3, false, none⟩, ⟨c!";", 3, false, none⟩,
      ⟨c!"}", 3, false, none⟩]) (hnm _ (by decide)) (by decide) (hw _ _ (by decide)) (.comment ⟨rfl, rfl⟩ (.word (hw _ _ (by decide)) .nil)) ⟨rfl, rfl⟩
    ((analyze_rules [] { directive := c!"root", line := 1, args := [c!"/r"] } c!";" [c!"http"] _).mp (by decide +kernel)) rfl (fun _ => rfl) ?_
  refine Conf.block (mid := []) (opening := ⟨c!"{", 3, false, none⟩) (closing := ⟨c!"}", 3, false, none⟩) (toks := []) (ds := [])
    (inner := [⟨c!"a", 3, false, none⟩, ⟨c!"b", 3, false, none⟩, ⟨c!";", 3, false, none⟩])
    (hnm _ (by decide)) (by decide) (hw _ _ (by decide)) .nil ⟨rfl, rfl⟩
    ((analyze_rules [] { directive := c!"types", line := 1, args := [] } c!"{" [c!"http"] _).mp (by decide +kernel)) rfl (fun _ => rfl) ?_ ⟨rfl, rfl⟩ .nil
  exact Conf.param (m := c!"types") (mid := [⟨c!"b", 3, false, none⟩]) (semi := ⟨c!";", 3, false, none⟩) (toks := [])
    ⟨by decide, by decide⟩ (hw _ _ (by decide)) (.word (hw _ _ (by decide)) .nil) ⟨rfl, rfl⟩ (by unfold MapArgs; decide) .nil

/-- The parser accepts more than the grammar: a file that starts with `;`. -/
theorem C70_false_start : ∃ (env : Env) (o : ParseOptions) (data : FileData), OneFile env c!"/e/n" o data ∧
    Parse env 2 c!"/e/n" o = .ok (okPayload [(c!"/e/n", [dir c!";" 1 [c!"a"]])]) ∧ ∀ ds, ¬ Conf (rulesOf o) [] ds (lex data.runes) := by
  refine ⟨exEnv [(c!"/e/n", c!";a;")], exOpts, { runes := c!";a;" }, ⟨fun l => List.Perm.refl l, rfl, Or.inr (by decide +kernel), rfl⟩, by decide +kernel, ?_⟩
  intro ds h
  have hl : lex c!";a;" = [⟨c!";", 1, false, none⟩, ⟨c!"a", 1, false, none⟩, ⟨c!";", 1, false, none⟩] := by decide +kernel
  exact h.shape.starts [] _ _ hl (by simp) (Or.inr (Or.inr ⟨rfl, rfl⟩))

/-- The parser accepts more than the grammar: a directive it does not know, without the `;`, at the end of a block. -/
theorem C70_false_end : ∃ (env : Env) (o : ParseOptions) (data : FileData), OneFile env c!"/e/n" o data ∧
    Parse env 2 c!"/e/n" o = .ok (okPayload [(c!"/e/n", [blk c!"z" 1 [] [dir c!"b" 1 []]])]) ∧ ∀ ds, ¬ Conf (rulesOf o) [] ds (lex data.runes) := by
  refine ⟨exEnv [(c!"/e/n", c!"z{b}")], exOpts, { runes := c!"z{b}" }, ⟨fun l => List.Perm.refl l, rfl, Or.inr (by decide +kernel), rfl⟩, by decide +kernel, ?_⟩
  intro ds h
  have hl : lex c!"z{b}" = [⟨c!"z", 1, false, none⟩, ⟨c!"{", 1, false, none⟩, ⟨c!"b", 1, false, none⟩, ⟨c!"}", 1, false, none⟩] := by decide +kernel
  have := h.shape.ends [⟨c!"z", 1, false, none⟩, ⟨c!"{", 1, false, none⟩] ⟨c!"b", 1, false, none⟩ [] ⟨c!"}", 1, false, none⟩ [] hl (by simp) ⟨rfl, rfl⟩
  rcases this with h | h | h | ⟨text, h⟩ <;> exact absurd h.2 (by simp)

end Verif
