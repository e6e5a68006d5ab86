import Verif.Proofs.Project
/-!
# C71: the parser accepts exactly the projects of several files

`Project` (Spec/Project) says which files, read in which contexts, with which trees and links, are a configuration.
-/
namespace Verif
open Spec

/-- What is assumed: includes are followed, in a file system that does not change; nothing combined. -/
structure Followed (env : Env) (o : ParseOptions) (text : Str → Option FileData) (matching : Str → Option (List Str)) : Prop where
  perm : ∀ l, (env.mapOrder l).Perm l
  disk : ReadOnly env text matching
  combine : o.combineConfigs = false
  follow : o.singleFile = false

/-- The files of a file system as a project: their tokens are those of the lexer, include directives stand for the files they name. -/
def IsProject (env : Env) (o : ParseOptions) (text : Str → Option FileData) (matching : Str → Option (List Str)) (filename : Str) (fs : List SourceFile) : Prop :=
  Project (fun f => (text f).map (fileToks o)) (rulesOf o (diskNames env (env.dir filename) text matching)) filename fs

theorem init_links (filename : Str) : Links [(filename, [])] (fun _ => 0) (initPS filename) where
  table := rfl
  nodup := by simp
  good := by
    intro f hf
    obtain rfl := List.mem_singleton.mp hf
    exact ⟨⟨by simp [initPS], rfl, Or.inl ⟨rfl, rfl⟩⟩, [], by simp [initPS], rfl, fun _ _ _ => rfl⟩

/-- C71 (completeness).  A project whose files are included at fresh depths (up to 3 blocks, or 5, 9, 17, 33; see C29) is parsed without an error, and the payload
has its files in order, with their trees and links. -/
theorem C71_complete {env : Env} {o : ParseOptions} {text : Str → Option FileData} {matching : Str → Option (List Str)} (ho : Followed env o text matching)
    {filename : Str} {fs : List SourceFile} {fuel : Nat} (hf : fs.length < fuel) (hfresh : ∀ f ∈ fs, Fresh f.ctx.length)
    (h : IsProject env o text matching filename fs) :
    Parse env fuel filename o = .ok (okPayload (fs.map fun f => (f.name, f.tree))) := by
  obtain ⟨ps', h1, h2, h3, h4⟩ := h.run ho.disk ho.follow ho.combine hfresh fs [] (initPS filename) (fun _ => 0) rfl
    (init_table filename) (init_links filename)
  obtain ⟨G, hG⟩ := h1.graph (init_table filename) ⟨_, init_graph filename⟩
  obtain ⟨hk1, hk2⟩ := h1.included_eq
  have ha : isAcyclic env ps' = false := by
    rw [← Bool.not_eq_true, (isAcyclic_spec ho.perm hG (by rw [hk1, indexed_keys]; exact hk2)).1]
    rintro ⟨a, hc⟩
    refine h.acyclic a (Relation.TransGen.mono (fun u v huv => ?_) _ _ hc)
    rcases (h4 u v).mp huv with h | h
    · cases h
    · exact h
  unfold Parse
  rw [h1.parseFiles_eq fuel (by simpa using hf) []]
  simp only [List.nil_append, ha, ho.combine, h2, h3]
  simp [okPayload, fileOk, initPS, Function.comp_def]

/-- C71 (soundness).  If the payload is ok and has the trees of `fs`, and the contexts of `fs` are those of the first includes, at fresh depths, then `fs` is a
project; except for files that start with `{` or `;` or have a statement without an end (C70). -/
theorem C71_sound {env : Env} {o : ParseOptions} {text : Str → Option FileData} {matching : Str → Option (List Str)} (ho : Followed env o text matching)
    {filename : Str} {fs : List SourceFile} {fuel : Nat} (hfresh : ∀ f ∈ fs, Fresh f.ctx.length)
    (hfiles : fs.map (fun f => (f.name, f.ctx)) = collect [(filename, [])] (fs.flatMap (·.refs (diskNames env (env.dir filename) text matching))))
    (hst : ∀ f ∈ fs, ∀ d, text f.name = some d → Formed o d)
    {p : Payload} (h : Parse env fuel filename o = .ok p) (hs : p.status = c!"ok")
    (hp : p.config.map (fun c => (c.file, c.parsed)) = fs.map (fun f => (f.name, f.tree))) :
    IsProject env o text matching filename fs := by
  obtain ⟨cs, ps', h1, ha, h2, -⟩ := Parse_ok h
  obtain rfl := h2 ho.combine
  have he : ps'.payErrors = [] := by
    rcases (C17_status h).1 with ⟨h1, -⟩ | ⟨-, h1⟩
    · rw [hs] at h1; simp at h1
    · exact h1
  obtain ⟨q1, q2, q3⟩ := h1.project ho.disk ho.follow ho.combine hfiles hfresh hst (by rw [he]; rfl) [] fs (fun _ => 0) hp rfl
    (init_table filename) (init_links filename)
  obtain ⟨G, hG⟩ := h1.graph (init_table filename) ⟨_, init_graph filename⟩
  obtain ⟨hk1, hk2⟩ := h1.included_eq
  refine ⟨hfiles, fun pre f post hx hne => q2 pre f post hx hne, fun f hf => (q1 f hf).1, fun f hf => (q1 f hf).2, fun a hc => ?_⟩
  rw [← Bool.not_eq_true, (isAcyclic_spec ho.perm hG (by rw [hk1, indexed_keys]; exact hk2)).1] at ha
  exact ha ⟨a, Relation.TransGen.mono (fun u v huv => (q3 u v).mpr (Or.inr huv)) _ _ hc⟩

/-- The files of a payload, with the contexts in which they are included first. -/
def sourceFiles (env : Env) (text : Str → Option FileData) (matching : Str → Option (List Str)) (filename : Str) (files : List (Str × List Directive)) :
    List SourceFile :=
  arrange (diskNames env (env.dir filename) text matching) [(filename, [])] 0 files

theorem arrange_files (N : List Str → Option (List Str)) (files : List (Str × List Directive)) :
    ∀ K i, (arrange N K i files).map (fun f => (f.name, f.tree)) = files := by
  induction files with
  | nil => intros; rfl
  | cons f files ih =>
    intro K i
    rw [arrange, List.map_cons, ih]

/-- C71 (soundness for payloads).  The files of an ok payload are a project, each in the context in which it is included first, if these contexts have fresh
depths; except for files that start with `{` or `;` or have a statement without an end (C70). -/
theorem C71_payload {env : Env} {o : ParseOptions} {text : Str → Option FileData} {matching : Str → Option (List Str)} (ho : Followed env o text matching)
    {filename : Str} {fuel : Nat} {p : Payload} (h : Parse env fuel filename o = .ok p) (hs : p.status = c!"ok")
    (hfresh : ∀ f ∈ sourceFiles env text matching filename (p.config.map fun c => (c.file, c.parsed)), Fresh f.ctx.length)
    (hst : ∀ c ∈ p.config, ∀ d, text c.file = some d → Formed o d) :
    IsProject env o text matching filename (sourceFiles env text matching filename (p.config.map fun c => (c.file, c.parsed))) := by
  have hmap := arrange_files (diskNames env (env.dir filename) text matching) (p.config.map fun c => (c.file, c.parsed)) [(filename, [])] 0
  refine C71_sound ho hfresh ?_ ?_ h hs hmap.symm
  · obtain ⟨cs, ps', h1, ha, h2, -⟩ := Parse_ok h
    obtain rfl := h2 ho.combine
    have he : ps'.payErrors = [] := by
      rcases (C17_status h).1 with ⟨h1, -⟩ | ⟨-, h1⟩
      · rw [hs] at h1; simp at h1
      · exact h1
    exact h1.arranged (ho.disk.follows ho.follow _) (by rw [he]; rfl) [] [(filename, [])] (fun _ => 0) (init_table filename) (init_links filename) hfresh
  · intro f hf d hd
    have : (f.name, f.tree) ∈ p.config.map fun c => (c.file, c.parsed) := by
      rw [← hmap]; exact List.mem_map.mpr ⟨f, hf, rfl⟩
    obtain ⟨c, hc, he⟩ := List.mem_map.mp this
    exact hst c hc d (by rw [(Prod.mk.inj he).1]; exact hd)

theorem C71_sound_trees {env : Env} {o : ParseOptions} {text : Str → Option FileData} {matching : Str → Option (List Str)} (ho : Followed env o text matching)
    {filename : Str} {fs : List SourceFile} {fuel : Nat} (hfresh : ∀ f ∈ fs, Fresh f.ctx.length)
    (h1 : Parse env fuel filename o = .ok (okPayload (fs.map fun f => (f.name, f.tree))))
    (h2 : fs = sourceFiles env text matching filename (fs.map fun f => (f.name, f.tree)))
    (h3 : ∀ f ∈ fs, ∀ d, text f.name = some d → Formed o d) : IsProject env o text matching filename fs := by
  have hc : (okPayload (fs.map fun f => (f.name, f.tree))).config.map (fun c => (c.file, c.parsed)) = fs.map fun f => (f.name, f.tree) := by
    simp [okPayload, Function.comp_def]
  have := C71_payload ho h1 rfl (by rw [hc, ← h2]; exact hfresh) (by
    intro c hm d hd
    have : (c.file, c.parsed) ∈ fs.map fun f => (f.name, f.tree) := by rw [← hc]; exact List.mem_map.mpr ⟨c, hm, rfl⟩
    obtain ⟨f, hf, he⟩ := List.mem_map.mp this
    exact h3 f hf d (by rw [(Prod.mk.inj he).1]; exact hd))
  rwa [hc, ← h2] at this

/-- C71.  Whatever lexers are registered and whatever is ignored: files at fresh depths are a project iff `Parse` gives a payload without errors with exactly
these files and trees, their contexts are those of the first includes in this payload, and the tokens of every file are statements without errors. -/
theorem C71_exact {env : Env} {o : ParseOptions} {text : Str → Option FileData} {matching : Str → Option (List Str)} (ho : Followed env o text matching)
    {filename : Str} {fs : List SourceFile} {fuel : Nat} (hf : fs.length < fuel) (hfresh : ∀ f ∈ fs, Fresh f.ctx.length) :
    IsProject env o text matching filename fs ↔
    Parse env fuel filename o = .ok (okPayload (fs.map fun f => (f.name, f.tree))) ∧
      fs = sourceFiles env text matching filename (fs.map fun f => (f.name, f.tree)) ∧
      ∀ f ∈ fs, ∀ d, text f.name = some d → (∀ t ∈ fileToks o d, t.error = none) ∧ Shape (fileToks o d) := by
  constructor
  · intro h
    refine ⟨C71_complete ho hf hfresh h, (h.arranged fs [] rfl).symm, fun f hf d hd => ?_⟩
    obtain ⟨ts, h1, h3, h2⟩ := h.conf f hf
    rw [hd] at h1
    cases h1
    exact ⟨h3, h2.shape⟩
  · rintro ⟨h1, h2, h3⟩
    exact C71_sound_trees ho hfresh h1 h2 fun f hf d hd => Or.inl (h3 f hf d hd)

/-- C71.  Without external lexers and IgnoreDirectives it is enough that every file starts with a word and has its statements ended. -/
theorem C71_exact_lexed {env : Env} {o : ParseOptions} {text : Str → Option FileData} {matching : Str → Option (List Str)} (ho : Followed env o text matching)
    (hl : o.lexers = []) (hi : o.ignoreDirectives = [])
    {filename : Str} {fs : List SourceFile} {fuel : Nat} (hf : fs.length < fuel) (hfresh : ∀ f ∈ fs, Fresh f.ctx.length) :
    IsProject env o text matching filename fs ↔
    Parse env fuel filename o = .ok (okPayload (fs.map fun f => (f.name, f.tree))) ∧
      fs = sourceFiles env text matching filename (fs.map fun f => (f.name, f.tree)) ∧
      ∀ f ∈ fs, ∀ d, text f.name = some d → StartsWithWord (lex d.runes) ∧ StatementsEnd (lex d.runes) := by
  constructor
  · intro h
    refine ⟨C71_complete ho hf hfresh h, (h.arranged fs [] rfl).symm, fun f hf d hd => ?_⟩
    obtain ⟨ts, h1, -, h2⟩ := h.conf f hf
    rw [hd] at h1
    cases h1
    rw [fileToks_lex hl] at h2
    exact ⟨h2.shape.starts, h2.shape.ends⟩
  · rintro ⟨h1, h2, h3⟩
    exact C71_sound_trees ho hfresh h1 h2 fun f hf d hd => Or.inr ⟨hl, hi, h3 f hf d hd⟩

/-- C71.  A payload has no errors iff it is the payload of a project (with the conditions of C70 and C29). -/
theorem C71_accepted {env : Env} {o : ParseOptions} {text : Str → Option FileData} {matching : Str → Option (List Str)} (ho : Followed env o text matching)
    {filename : Str} {fuel : Nat} {p : Payload} (hf : p.config.length < fuel)
    (hfresh : ∀ f ∈ sourceFiles env text matching filename (p.config.map fun c => (c.file, c.parsed)), Fresh f.ctx.length)
    (hst : ∀ c ∈ p.config, ∀ d, text c.file = some d → Formed o d) :
    Parse env fuel filename o = .ok p ∧ p.status = c!"ok" ↔
    IsProject env o text matching filename (sourceFiles env text matching filename (p.config.map fun c => (c.file, c.parsed))) ∧
      p = okPayload (p.config.map fun c => (c.file, c.parsed)) := by
  have hmap := arrange_files (diskNames env (env.dir filename) text matching) (p.config.map fun c => (c.file, c.parsed)) [(filename, [])] 0
  have hcomp : IsProject env o text matching filename (sourceFiles env text matching filename (p.config.map fun c => (c.file, c.parsed))) →
      Parse env fuel filename o = .ok (okPayload (p.config.map fun c => (c.file, c.parsed))) := by
    intro h
    have hlen := congrArg List.length hmap
    rw [List.length_map, List.length_map] at hlen
    have := C71_complete ho (fuel := fuel) (by rw [sourceFiles, hlen]; exact hf) hfresh h
    rwa [sourceFiles, hmap] at this
  constructor
  · rintro ⟨h1, h2⟩
    have h3 := C71_payload ho h1 h2 hfresh hst
    have h4 := hcomp h3
    rw [h1] at h4
    exact ⟨h3, Res.ok.inj h4⟩
  · rintro ⟨h1, h2⟩
    refine ⟨?_, by rw [h2]; rfl⟩
    have h4 := hcomp h1
    rwa [← h2] at h4

/-! ## Examples -/

/-- The texts of an `exEnv`. -/
def exTexts (files : List (Str × Str)) : Str → Option FileData := fun f => (files.lookup f).map fun t => { runes := t }

/-- Every pattern matches all files. -/
def exMatching (files : List (Str × Str)) : Str → Option (List Str) := fun _ => some (sortStrings (files.map (·.1)))

theorem insertSorted_isPerm (x : Str) (l : List Str) : (insertSorted x l).Perm (x :: l) := by
  induction l with
  | nil => exact List.Perm.refl _
  | cons y l ih =>
    rw [insertSorted]
    split
    · exact (ih.cons y).trans (.swap x y l)
    · exact List.Perm.refl _

theorem sortStrings_isPerm (l : List Str) : (sortStrings l).Perm l := by
  induction l with
  | nil => exact List.Perm.refl _
  | cons x l ih => exact (insertSorted_isPerm x _).trans (ih.cons x)

theorem exEnv_readOnly (files : List (Str × Str)) (hs : (sortStrings (files.map (·.1))).Pairwise fun a b => strLt b a = false) :
    ReadOnly (exEnv files) (exTexts files) (exMatching files) where
  isFile := by
    intro n f d h
    obtain ⟨t, h1, rfl⟩ := Option.map_eq_some_iff.mp h
    simp [exEnv, h1]
  noFile := by
    intro n f h
    have h1 : files.lookup f = none := by simpa [exTexts] using h
    refine ⟨.other (c!"open " ++ f ++ c!": no such file or directory"), ?_⟩
    simp only [exEnv, h1]
  found := by
    intro n p l h
    cases h
    exact ⟨_, rfl, (sortStrings_isPerm _).trans (List.reverse_perm _).symm, hs⟩
  notFound := by intro n p h; cases h

theorem exWord {v : Str} {line : Int} (h : (⟨v, line, false, none⟩ : Tok).isTerm = false ∧ (⟨v, line, false, none⟩ : Tok).isCommentTok = false) :
    WordTok ⟨v, line, false, none⟩ := wordTok_iff.mpr h

/-- A statement of the examples: no comments, no quotes. -/
theorem exSimple {N : List Str → Option (List Str)} {ctx : List Str} {v : Str} {args : List Str} {ds : List Directive} {toks : List Tok}
    (hm : mapCtx ctx = none) (hv : WordTok ⟨v, 1, false, none⟩) (ha : ∀ a ∈ args, WordTok ⟨a, 1, false, none⟩)
    (hok : analyze [] { directive := v, line := 1, args := args } c!";" ctx exOpts = none) (hst : StmtArgs v args args) (hf : (rulesOf exOpts N).Found v args)
    (h : Conf (rulesOf exOpts N) ctx ds toks) :
    Conf (rulesOf exOpts N) ctx (dir v 1 args :: ds) (⟨v, 1, false, none⟩ :: (args.map (fun a => ⟨a, 1, false, none⟩) ++ ⟨c!";", 1, false, none⟩ :: toks)) := by
  refine Conf.simple (mid := args.map fun a => ⟨a, 1, false, none⟩) (texts := []) (mapCtx_none.mp hm) (by simp [rulesOf, exOpts]) hv ?_ ⟨rfl, rfl⟩
    ((analyze_rules [] { directive := v, line := 1, args := args } c!";" ctx _ _).mp hok) hst hf h
  clear hok hst hf
  induction args with
  | nil => exact .nil
  | cons a args ih => exact .word (ha a (by simp)) (ih fun b hb => ha b (by simp [hb]))

/-- A block of the examples. -/
theorem exBlock {N : List Str → Option (List Str)} {ctx : List Str} {v : Str} {b ds : List Directive} {inner toks : List Tok}
    (hm : mapCtx ctx = none) (hv : WordTok ⟨v, 1, false, none⟩)
    (hok : analyze [] { directive := v, line := 1, args := [] } c!"{" ctx exOpts = none) (hst : StmtArgs v [] []) (hf : v ≠ c!"include")
    (hb : Conf (rulesOf exOpts N) (enter ctx v) b inner) (h : Conf (rulesOf exOpts N) ctx ds toks) :
    Conf (rulesOf exOpts N) ctx (blk v 1 [] b :: ds)
      (⟨v, 1, false, none⟩ :: ⟨c!"{", 1, false, none⟩ :: (inner ++ ⟨c!"}", 1, false, none⟩ :: toks)) :=
  Conf.block (mid := []) (texts := []) (mapCtx_none.mp hm) (by simp [rulesOf, exOpts]) hv .nil ⟨rfl, rfl⟩
    ((analyze_rules [] { directive := v, line := 1, args := [] } c!"{" ctx _ _).mp hok) hst (fun h => absurd h hf) hb ⟨rfl, rfl⟩ h

/-- Two files, the second included twice in a block of the first. -/
def exTwo : List (Str × Str) := [(c!"/e/n", c!"http{include a;include a;}"), (c!"/e/a", c!"x y;")]

def exTwoFiles : List SourceFile :=
  [⟨c!"/e/n", [], [blk c!"http" 1 [] [incl 1 c!"a" [1], incl 1 c!"a" [1]]]⟩, ⟨c!"/e/a", [c!"http"], [dir c!"x" 1 [c!"y"]]⟩]

theorem exTwo_followed : Followed (exEnv exTwo) exOpts (exTexts exTwo) (exMatching exTwo) :=
  ⟨fun _ => List.Perm.refl _, exEnv_readOnly _ (by decide +kernel), rfl, rfl⟩

theorem exTwo_project : IsProject (exEnv exTwo) exOpts (exTexts exTwo) (exMatching exTwo) c!"/e/n" exTwoFiles where
  files := by decide +kernel
  earlier := by
    intro pre f post h hne
    obtain ⟨p, pre, rfl⟩ := List.exists_cons_of_ne_nil hne
    rw [exTwoFiles, List.cons_append, List.cons.injEq] at h
    obtain ⟨rfl, h⟩ := h
    cases pre with
    | nil =>
      rw [List.nil_append, List.cons.injEq] at h
      obtain ⟨rfl, -⟩ := h
      exact ⟨_, List.mem_singleton.mpr rfl, by decide +kernel⟩
    | cons q pre => simp at h
  conf := by
    intro f hf
    rcases List.mem_cons.mp hf with rfl | hf
    · refine ⟨_, rfl, by decide +kernel, ?_⟩
      have hl : lex c!"http{include a;include a;}" = [⟨c!"http", 1, false, none⟩, ⟨c!"{", 1, false, none⟩, ⟨c!"include", 1, false, none⟩,
        ⟨c!"a", 1, false, none⟩, ⟨c!";", 1, false, none⟩, ⟨c!"include", 1, false, none⟩, ⟨c!"a", 1, false, none⟩, ⟨c!";", 1, false, none⟩,
        ⟨c!"}", 1, false, none⟩] := by decide +kernel
      show Conf _ [] _ (lex c!"http{include a;include a;}")
      rw [hl]
      refine exBlock (inner := [⟨c!"include", 1, false, none⟩, ⟨c!"a", 1, false, none⟩, ⟨c!";", 1, false, none⟩, ⟨c!"include", 1, false, none⟩,
        ⟨c!"a", 1, false, none⟩, ⟨c!";", 1, false, none⟩]) (by decide) (exWord (by decide)) (by decide +kernel) rfl (by decide) ?_ .nil
      have ha : ∀ a ∈ [c!"a"], WordTok ⟨a, 1, false, none⟩ := fun a ha => by
        obtain rfl := List.mem_singleton.mp ha; exact exWord (by decide)
      exact exSimple (args := [c!"a"]) (by decide) (exWord (by decide)) ha (by decide +kernel) rfl (fun _ => by decide +kernel)
        (exSimple (args := [c!"a"]) (by decide) (exWord (by decide)) ha (by decide +kernel) rfl (fun _ => by decide +kernel) .nil)
    · obtain rfl := List.mem_singleton.mp hf
      refine ⟨_, rfl, by decide +kernel, ?_⟩
      have hl : lex c!"x y;" = [⟨c!"x", 1, false, none⟩, ⟨c!"y", 1, false, none⟩, ⟨c!";", 1, false, none⟩] := by decide +kernel
      show Conf _ [c!"http"] _ (lex c!"x y;")
      rw [hl]
      exact exSimple (args := [c!"y"]) (by decide) (exWord (by decide))
        (fun a ha => by obtain rfl := List.mem_singleton.mp ha; exact exWord (by decide)) (by decide +kernel) rfl (fun h => by cases h) .nil
  linked := by decide +kernel
  acyclic := by
    have hno : ∀ a b, (∃ f ∈ exTwoFiles, f.name = a ∧ b ∈ (f.refs (diskNames (exEnv exTwo) c!"/e" (exTexts exTwo) (exMatching exTwo))).map (·.1)) →
        a = c!"/e/n" ∧ b = c!"/e/a" := by
      rintro a b ⟨f, hf, rfl, hb⟩
      rcases List.mem_cons.mp hf with rfl | hf
      · refine ⟨rfl, ?_⟩
        have : b ∈ [c!"/e/a", c!"/e/a"] := hb
        simpa using this
      · obtain rfl := List.mem_singleton.mp hf
        have : b ∈ ([] : List Str) := hb
        cases this
    have hend : ∀ a b, Relation.TransGen (fun a b => ∃ f ∈ exTwoFiles, f.name = a ∧
        b ∈ (f.refs (diskNames (exEnv exTwo) c!"/e" (exTexts exTwo) (exMatching exTwo))).map (·.1)) a b → a = c!"/e/n" ∧ b = c!"/e/a" := by
      intro a b h
      induction h with
      | single h => exact hno _ _ h
      | tail _ h ih => exact ⟨ih.1, (hno _ _ h).2⟩
    intro a h
    obtain ⟨h1, h2⟩ := hend a a h
    rw [h1] at h2
    exact absurd h2 (by decide)

example : Parse (exEnv exTwo) 3 c!"/e/n" exOpts = .ok (okPayload (exTwoFiles.map fun f => (f.name, f.tree))) :=
  C71_complete exTwo_followed (by decide) (by
    intro f hf
    rcases List.mem_cons.mp hf with rfl | hf
    · exact Or.inl (Nat.zero_le _)
    · obtain rfl := List.mem_singleton.mp hf
      exact Or.inl (Nat.le_refl _)) exTwo_project

/-- The project of `exDeep` (C29): the second file is included in four blocks. -/
def exDeepFiles : List SourceFile :=
  [⟨c!"/e/n", [], [blk c!"a" 1 [] [blk c!"b" 1 [] [blk c!"c" 1 [] [blk c!"d" 1 [] [incl 1 c!"x" [1]], blk c!"map" 1 [] []]]]]⟩,
    ⟨c!"/e/x", [c!"a", c!"b", c!"c", c!"d"], [dir c!"y" 1 [c!"z"]]⟩]

def exDeepTexts : List (Str × Str) := [(c!"/e/n", c!"a{b{c{d{include x;}map{}}}}"), (c!"/e/x", c!"y z;")]

/-- Without fresh depths C71 is false: the files are a project, but the payload has another tree for the second file. -/
theorem C71_false_deep : ∃ (env : Env) (o : ParseOptions) (text : Str → Option FileData) (matching : Str → Option (List Str)) (fs : List SourceFile) (p : Payload),
    Followed env o text matching ∧ IsProject env o text matching c!"/e/n" fs ∧ fs.length < 3 ∧ Parse env 3 c!"/e/n" o = .ok p ∧ p.status = c!"ok" ∧
    p ≠ okPayload (fs.map fun f => (f.name, f.tree)) := by
  refine ⟨exEnv exDeepTexts, exOpts, exTexts exDeepTexts, exMatching exDeepTexts, exDeepFiles, exDeepOut,
    ⟨fun _ => List.Perm.refl _, exEnv_readOnly _ (by decide +kernel), rfl, rfl⟩, ⟨by decide +kernel, ?_, ?_, by decide +kernel, ?_⟩,
    by decide, by decide +kernel, rfl, by decide +kernel⟩
  · intro pre f post h hne
    obtain ⟨p, pre, rfl⟩ := List.exists_cons_of_ne_nil hne
    rw [exDeepFiles, List.cons_append, List.cons.injEq] at h
    obtain ⟨rfl, h⟩ := h
    cases pre with
    | nil =>
      rw [List.nil_append, List.cons.injEq] at h
      obtain ⟨rfl, -⟩ := h
      exact ⟨_, List.mem_singleton.mpr rfl, by decide +kernel⟩
    | cons q pre => simp at h
  · intro f hf
    rcases List.mem_cons.mp hf with rfl | hf
    · refine ⟨_, rfl, by decide +kernel, ?_⟩
      have hl : lex c!"a{b{c{d{include x;}map{}}}}" = [c!"a", c!"{", c!"b", c!"{", c!"c", c!"{", c!"d", c!"{", c!"include", c!"x", c!";", c!"}", c!"map", c!"{",
        c!"}", c!"}", c!"}", c!"}"].map fun v => ⟨v, 1, false, none⟩ := by decide +kernel
      show Conf _ [] _ (lex c!"a{b{c{d{include x;}map{}}}}")
      rw [hl]
      refine exBlock (inner := [c!"b", c!"{", c!"c", c!"{", c!"d", c!"{", c!"include", c!"x", c!";", c!"}", c!"map", c!"{", c!"}", c!"}", c!"}"].map
        fun v => ⟨v, 1, false, none⟩) (by decide) (exWord (by decide)) (by decide +kernel) rfl (by decide) ?_ .nil
      refine exBlock (inner := [c!"c", c!"{", c!"d", c!"{", c!"include", c!"x", c!";", c!"}", c!"map", c!"{", c!"}", c!"}"].map
        fun v => ⟨v, 1, false, none⟩) (by decide) (exWord (by decide)) (by decide +kernel) rfl (by decide) ?_ .nil
      refine exBlock (inner := [c!"d", c!"{", c!"include", c!"x", c!";", c!"}", c!"map", c!"{", c!"}"].map
        fun v => ⟨v, 1, false, none⟩) (by decide) (exWord (by decide)) (by decide +kernel) rfl (by decide) ?_ .nil
      refine exBlock (inner := [c!"include", c!"x", c!";"].map fun v => ⟨v, 1, false, none⟩) (toks := [c!"map", c!"{", c!"}"].map fun v => ⟨v, 1, false, none⟩)
        (by decide) (exWord (by decide)) (by decide +kernel) rfl (by decide) ?_ ?_
      · exact exSimple (args := [c!"x"]) (by decide) (exWord (by decide))
          (fun a ha => by obtain rfl := List.mem_singleton.mp ha; exact exWord (by decide)) (by decide +kernel) rfl (fun _ => by decide +kernel) .nil
      · exact exBlock (inner := []) (by decide) (exWord (by decide)) (by decide +kernel) rfl (by decide) .nil .nil
    · obtain rfl := List.mem_singleton.mp hf
      refine ⟨_, rfl, by decide +kernel, ?_⟩
      have hl : lex c!"y z;" = [⟨c!"y", 1, false, none⟩, ⟨c!"z", 1, false, none⟩, ⟨c!";", 1, false, none⟩] := by decide +kernel
      show Conf _ [c!"a", c!"b", c!"c", c!"d"] _ (lex c!"y z;")
      rw [hl]
      exact exSimple (args := [c!"z"]) (by decide) (exWord (by decide))
        (fun a ha => by obtain rfl := List.mem_singleton.mp ha; exact exWord (by decide)) (by decide +kernel) rfl (fun h => by cases h) .nil
  · have hno : ∀ a b, (∃ f ∈ exDeepFiles, f.name = a ∧
        b ∈ (f.refs (diskNames (exEnv exDeepTexts) c!"/e" (exTexts exDeepTexts) (exMatching exDeepTexts))).map (·.1)) → a = c!"/e/n" ∧ b = c!"/e/x" := by
      rintro a b ⟨f, hf, rfl, hb⟩
      rcases List.mem_cons.mp hf with rfl | hf
      · refine ⟨rfl, ?_⟩
        have : b ∈ [c!"/e/x"] := hb
        simpa using this
      · obtain rfl := List.mem_singleton.mp hf
        have : b ∈ ([] : List Str) := hb
        cases this
    have hend : ∀ a b, Relation.TransGen (fun a b => ∃ f ∈ exDeepFiles, f.name = a ∧
        b ∈ (f.refs (diskNames (exEnv exDeepTexts) c!"/e" (exTexts exDeepTexts) (exMatching exDeepTexts))).map (·.1)) a b → a = c!"/e/n" ∧ b = c!"/e/x" := by
      intro a b h
      induction h with
      | single h => exact hno _ _ h
      | tail _ h ih => exact ⟨ih.1, (hno _ _ h).2⟩
    intro a h
    obtain ⟨h1, h2⟩ := hend a a h
    rw [h1] at h2
    exact absurd h2 (by decide)

end Verif
