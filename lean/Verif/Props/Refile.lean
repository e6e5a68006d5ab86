import Verif.Proofs.Written
import Verif.Proofs.Refile
/-!
# C62: building and parsing the files of a payload
-/
namespace Verif
open Spec

/-- What the header becomes when the text is parsed: comments, if they are kept. -/
def headerRead (o : ParseOptions) (bo : BuildOptions) : List Directive := if o.parseComments then headerDirs bo else []

/-- The comments at the front of a tree are the first tokens. -/
theorem Toks.comments {hd : Str → List Str → List Item} {a b : List Directive} {toks : List Tok} (h : Toks hd (a ++ b) toks) (ha : ∀ d ∈ a, IsComment d) :
    ∃ ts rest, toks = ts ++ rest ∧ Toks hd b rest ∧
      List.Forall₂ (fun (d : Directive) (t : Tok) => t.value = '#' :: textOf (cunits (d.comment.getD [])).1 ∧ t.quoted = false ∧ t.error = none) a ts := by
  induction a generalizing toks with
  | nil => exact ⟨[], toks, rfl, h, .nil⟩
  | cons d a ih =>
    rw [List.cons_append] at h
    have hc := ha d (by simp)
    cases h with
    | comment _ h =>
      obtain ⟨ts, rest, rfl, h1, h2⟩ := ih h (fun x hx => ha x (by simp [hx]))
      exact ⟨_ :: ts, rest, rfl, h1, .cons ⟨rfl, rfl, rfl⟩ h2⟩
    | simple hn => exact absurd hc hn
    | block hn => exact absurd hc hn

/-- Comments at the front are read and do not change the state. -/
theorem run_comments {env : Env} {o : ParseOptions} {configDir file : Str} {ctx : Ctx} {ps : PS} (hcombine : o.combineConfigs = false) {a : List Directive} {ts : List Tok}
    (hshape : ∀ d ∈ a, d = commentDir (d.comment.getD []) ∧ CommentText (d.comment.getD []))
    (h : List.Forall₂ (fun (d : Directive) (t : Tok) => t.value = '#' :: textOf (cunits (d.comment.getD [])).1 ∧ t.quoted = false ∧ t.error = none) a ts)
    {toks : List Tok} {ds es : List Directive} {toks' : List Tok} {ps' : PS} (hr : RunOk env o configDir file ctx toks ps es toks' ps') (hu : UpToLines ds es) :
    ∃ es', RunOk env o configDir file ctx (ts ++ toks) ps es' toks' ps' ∧ UpToLines ((if o.parseComments then a else []) ++ ds) es' := by
  induction h with
  | nil => exact ⟨es, hr, by cases o.parseComments <;> exact hu⟩
  | @cons d t a ts ht _ ih =>
    obtain ⟨h1, h2, h3⟩ := ht
    obtain ⟨es', i1, i2⟩ := ih (fun x hx => hshape x (by simp [hx]))
    obtain ⟨hd, htext⟩ := hshape d (by simp)
    rw [htext.cunits] at h1
    have hs := (StepR.comment (env := env) (o := o) (configDir := configDir) (file := file) (ctx := ctx) (t := t) (toks := ts ++ toks) (ps := ps) h3
      (by simp [Tok.is, h1]) (by simp [Tok.isCommentTok, hasPrefix, List.isPrefixOf, h1, h2])).step_eq
    have hrun := RunOk.next _ _ _ _ _ _ _ _ _ _ hs i1
    cases hp : o.parseComments with
    | false =>
      rw [hp] at hrun i2
      exact ⟨es', hrun, i2⟩
    | true =>
      rw [hp] at hrun i2
      refine ⟨_, hrun, ?_⟩
      rw [if_pos rfl, List.cons_append, if_pos rfl, List.cons_append, List.nil_append]
      have : commentStmt o file t = { d with line := t.line } := by
        rw [hd]; simp [commentStmt, commentDir, hcombine, h1]
      rw [this]
      refine UpToLines.leaf ?_ ?_
      · rw [hd]; rfl
      · simpa using i2

/-- What is asked of the trees of a payload: their strings are read back as they are (C40), comments on one line are apart, no directive has a builder of
its own, and no parameter of a map-like block is named `if`. -/
structure Rebuildable (isPrint : Char → Bool) (bo : BuildOptions) (ds : List Directive) : Prop where
  head : ∀ d, Within d ds → ¬ IsComment d → HeadReadable isPrint d.directive d.args
  param : ∀ d, Within d ds → d.isMapBlockParameter = true → d.directive ≠ c!"if"
  apart : CommentsApart ds
  builder : NoBuilder isPrint bo ds

/-- A config and the one parsed from its built text. -/
structure Reparsed (o : ParseOptions) (bo : BuildOptions) (c c' : Config) : Prop where
  file : c'.file = c.file
  status : c'.status = c.status
  errors : c'.errors = c.errors
  parsed : UpToLines (headerRead o bo ++ c.parsed) c'.parsed

theorem handleError_ne {o : ParseOptions} {file : Str} {ps q : PS} {e : GoErr} (h : (handleError o file ps e).payErrors <+: q.payErrors) : q.payErrors ≠ ps.payErrors := by
  intro he
  have := h.length_le
  rw [he] at this
  simp [handleError] at this
  omega

/-- What may have been written for a config: its built text, with a line feed (as BuildInto does), or without the white space at its end and with a
line feed (as BuildFiles does). -/
def WrittenAs (isPrint : Char → Bool) (bo : BuildOptions) (cfg : Config) (text : Str) : Prop :=
  text = fullText isPrint bo cfg ∨ text = fullText isPrint bo cfg ++ ['\n'] ∨
    NoBlankEnd cfg.parsed ∧ ∃ t, Trimmed (fullText isPrint bo cfg) t ∧ text = t ++ ['\n']

/-- The worklist loop over files with the tokens of the trees does what it did over the files. -/
theorem FilesOk.refile {hd : Str → List Str → List Item} {bo : BuildOptions} {env env' : Env} {o : ParseOptions} {configDir : Str} {ps ps' : PS} {cs : List Config}
    (h : FilesOk env o configDir ps cs ps') (he : ps'.payErrors = ps.payErrors) (hcombine : o.combineConfigs = false)
    (hmask : ∀ m, HasMask (sources o) c!"if" m → m.testBit 11 = true ∨ m.testBit 12 = true)
    (hif : ∀ cfg ∈ cs, ∀ d, Within d cfg.parsed → d.directive = c!"if" → ∃ a as, d.args = a :: as ∧ a ≠ [])
    (hparam : ∀ cfg ∈ cs, ∀ d, Within d cfg.parsed → d.isMapBlockParameter = true → d.directive ≠ c!"if") (hsame : SamePaths env env')
    (hopen : ∀ f ∈ ps'.included.map (·.1), ∀ n, ∃ data, env'.openFile n f = .ok data)
    (hbuilt : ∀ cfg ∈ cs, (∃ s, ShapeOf (lexWith (extLexersOf o.lexers) s) cfg.parsed) → ReadBy hd cfg.parsed ∧
      ∃ data, Toks hd (headerDirs bo ++ cfg.parsed) (fileToks o data) ∧ ∀ n, env'.openFile n cfg.file = .ok data) :
    ∃ cs', FilesOk env' o configDir ps cs' ps' ∧ List.Forall₂ (Reparsed o bo) cs cs' := by
  induction h with
  | nil ps hi => exact ⟨[], .nil ps hi, .nil⟩
  | bad ps incl rest data e toks' ps1 cs ps' hi ho hr hs hf ih =>
    exfalso
    refine handleError_ne hf.errors_grow ?_
    have h1 := (payErrors_rel o incl.path).runFail hr
    have h2 := ((payErrors_rel o incl.path).err ps1 e).trans hf.errors_grow
    exact prefix_antisymm (by rw [he]; exact h1) h2
  | ok ps incl rest data ds toks' ps1 cs ps' hi ho hr hf ih =>
    have h1 := (payErrors_rel o incl.path).runOk hr
    have h2 := hf.errors_grow
    have he1 : ps1.payErrors = ps.payErrors := prefix_antisymm (by rw [← he]; exact h2) h1
    obtain ⟨cs', i1, i2⟩ := ih (he.trans he1.symm) (fun c hc => hif c (by simp [hc])) (fun c hc => hparam c (by simp [hc])) hopen (fun c hc => hbuilt c (by simp [hc]))
    have hnodes := hr.nodes
    obtain ⟨hread, data', htoks, hop⟩ := hbuilt _ (List.mem_cons_self ..) ⟨data.runes, nodes_shape hnodes hr.commentsFrom.1⟩
    have hacc : Accepts needsQuote o incl.ctx.vals ds := nodes_accepts hnodes (hif _ (List.mem_cons_self ..)) hmask (hparam _ (List.mem_cons_self ..))
    obtain ⟨ts, body, e1, e2, e3⟩ := htoks.comments (fun d hd => (headerDirs_comment hd).1)
    have hrep := hr.replay he1
    obtain ⟨more, hmore⟩ := hf.nodes.1
    obtain ⟨es, r1, r2⟩ := run_replay (env' := env') hsame e2 incl.ctx _ ps1 [] [] hrep he1
      (fun f hf' => hopen f (by rw [hmore]; simp only [List.map_append, List.mem_append]; exact Or.inl hf')) hread hacc (Or.inl ⟨rfl, rfl⟩)
    rw [List.append_nil] at r1
    obtain ⟨es', r3, r4⟩ := run_comments hcombine (fun d hd => by
      refine ⟨?_, (headerDirs_comment hd).2.2.2⟩
      unfold headerDirs at hd
      split at hd
      · simp only [List.mem_cons, List.not_mem_nil, or_false] at hd
        rcases hd with rfl | rfl | rfl <;> rfl
      · simp at hd) e3 r1 r2
    rw [← e1] at r3
    exact ⟨fileConfig incl.path ps1 es' :: cs', .ok ps incl rest data' es' [] ps1 cs' ps' hi (hop _) r3 i1, .cons ⟨rfl, rfl, rfl, r4⟩ i2⟩

/-- A payload that was parsed without errors is given back when its files have the tokens of its trees. -/
theorem refile_toks {hd : Str → List Str → List Item} {bo : BuildOptions} {env : Env} {fuel : Nat} {filename : Str} {o : ParseOptions} {p : Payload}
    (hparse : Parse env fuel filename o = .ok p) (herrors : p.errors = []) (hcombine : o.combineConfigs = false)
    (hmask : ∀ m, HasMask (sources o) c!"if" m → m.testBit 11 = true ∨ m.testBit 12 = true)
    (hif : ∀ cfg ∈ p.config, ∀ d, Within d cfg.parsed → d.directive = c!"if" → ∃ a as, d.args = a :: as ∧ a ≠ [])
    (hparam : ∀ cfg ∈ p.config, ∀ d, Within d cfg.parsed → d.isMapBlockParameter = true → d.directive ≠ c!"if")
    {env' : Env} (hsame : SamePaths env env') (hperm : ∀ l, (env.mapOrder l).Perm l) (hperm' : ∀ l, (env'.mapOrder l).Perm l)
    (hopen : ∀ cfg ∈ p.config, ∃ data, ∀ n, env'.openFile n cfg.file = .ok data)
    (hbuilt : ∀ cfg ∈ p.config, (∃ s, ShapeOf (lexWith (extLexersOf o.lexers) s) cfg.parsed) → ReadBy hd cfg.parsed ∧
      ∃ data, Toks hd (headerDirs bo ++ cfg.parsed) (fileToks o data) ∧ ∀ n, env'.openFile n cfg.file = .ok data)
    {fuel' : Nat} (hfuel : p.config.length < fuel') :
    ∃ p', Parse env' fuel' filename o = .ok p' ∧ p'.status = p.status ∧ p'.errors = [] ∧ List.Forall₂ (Reparsed o bo) p.config p'.config := by
  obtain ⟨cs, ps', h1, hac, h3, -⟩ := Parse_ok hparse
  obtain rfl := h3 hcombine
  have he : ps'.payErrors = (initPS filename).payErrors := herrors
  have hkeys : ps'.included.map (·.1) = cs.map (·.file) := by rw [h1.included_eq.1, indexed_keys]
  obtain ⟨cs', g1, g2⟩ := h1.refile he hcombine hmask hif hparam hsame (by
    intro f hf n
    rw [hkeys] at hf
    obtain ⟨cfg, hc, rfl⟩ := List.mem_map.mp hf
    obtain ⟨data, hd⟩ := hopen cfg hc
    exact ⟨data, hd n⟩) hbuilt
  have hlen : cs'.length = cs.length := g2.length_eq.symm
  have hac' : isAcyclic env' ps' = false := by
    obtain ⟨G, hG⟩ := h1.graph (init_table filename) ⟨_, init_graph filename⟩
    have hnd : (ps'.included.map (·.1)).Nodup := by rw [hkeys]; exact h1.included_eq.2
    have e1 := (isAcyclic_spec hperm hG hnd).1
    have e2 := (isAcyclic_spec (env := env') hperm' hG hnd).1
    rw [← hac, Bool.eq_iff_iff, e1, e2]
  refine ⟨rawPayload ps' cs', ?_, rfl, herrors, g2⟩
  unfold Parse
  rw [hsame.dir, g1.parseFiles_eq fuel' (by rw [hlen]; exact hfuel) []]
  simp only [hac', Bool.false_eq_true, if_false, hcombine, List.nil_append]
  rfl

theorem refile {isPrint : Char → Bool} {bo : BuildOptions} {env : Env} {fuel : Nat} {filename : Str} {o : ParseOptions} {p : Payload}
    (hparse : Parse env fuel filename o = .ok p) (herrors : p.errors = [])
    (hcombine : o.combineConfigs = false) (hlexers : o.lexers = [])
    (hmask : ∀ m, HasMask (sources o) c!"if" m → m.testBit 11 = true ∨ m.testBit 12 = true)
    (hbuildable : ∀ cfg ∈ p.config, Rebuildable isPrint bo cfg.parsed)
    {env' : Env} (hsame : SamePaths env env') (hperm : ∀ l, (env.mapOrder l).Perm l) (hperm' : ∀ l, (env'.mapOrder l).Perm l)
    (hbuilt : ∀ cfg ∈ p.config, ∃ data, WrittenAs isPrint bo cfg data.runes ∧ ∀ n, env'.openFile n cfg.file = .ok data)
    {fuel' : Nat} (hfuel : p.config.length < fuel') :
    ∃ p', Parse env' fuel' filename o = .ok p' ∧ p'.status = p.status ∧ p'.errors = [] ∧ List.Forall₂ (Reparsed o bo) p.config p'.config := by
  refine refile_toks (hd := heads isPrint) hparse herrors hcombine hmask ?_ (fun c hc => (hbuildable c hc).param) hsame hperm hperm' ?_ ?_ hfuel
  · intro cfg hc d hw hif
    have hr := (hbuildable cfg hc).head d hw (by rintro ⟨e, -⟩; rw [hif] at e; cases e)
    exact hr.ifCons hif
  · intro cfg hc
    obtain ⟨data, -, h⟩ := hbuilt cfg hc
    exact ⟨data, h⟩
  · rintro cfg hc ⟨s, hshape⟩
    rw [hlexers] at hshape
    have hb := hbuildable cfg hc
    have hread : Readable isPrint cfg.parsed := ShapeOf.readable (s := s) hshape hb.head
    obtain ⟨data, hbuild, hop⟩ := hbuilt cfg hc
    refine ⟨hread.readBy, data, ?_, hop⟩
    unfold fileToks
    rw [hlexers]
    rcases hbuild with e | e | ⟨e1, t, e2, e⟩
    · rw [e]; exact fullText_toks hread hb.apart hb.builder
    · rw [e]; exact fullText_nl_toks hread hb.apart hb.builder
    · rw [e]; exact trimmed_toks hread hb.apart hb.builder e1 e2

/-- C62: a payload that was parsed without errors, following its includes, is given back when each of its configs is built (with any indentation, tabs and
header) into its file, with or without a line feed at the end, and the files are parsed with the same options: the same files in the same order, with the
same directives, arguments, comments, blocks and include indices.  Only the lines may differ.  (The conditions on the trees are those of C42; the masks of
`if` have to allow any number of arguments, as those of the tables do.) -/
theorem C62_files_partial (isPrint : Char → Bool) (bo : BuildOptions) {env : Env} {fuel : Nat} {filename : Str} {o : ParseOptions} {p : Payload}
    (hparse : Parse env fuel filename o = .ok p) (herrors : p.errors = [])
    (hcombine : o.combineConfigs = false) (hlexers : o.lexers = [])
    (hmask : ∀ m, HasMask (sources o) c!"if" m → m.testBit 11 = true ∨ m.testBit 12 = true)
    (hbuildable : ∀ cfg ∈ p.config, Rebuildable isPrint bo cfg.parsed) (hindent : 0 ≤ bo.indent)
    {env' : Env} (hsame : SamePaths env env') (hperm : ∀ l, (env.mapOrder l).Perm l) (hperm' : ∀ l, (env'.mapOrder l).Perm l)
    (hbuilt : ∀ cfg ∈ p.config, ∃ text data, buildText isPrint cfg bo = some text ∧ (data.runes = text ∨ data.runes = text ++ ['\n']) ∧
      ∀ n, env'.openFile n cfg.file = .ok data)
    {fuel' : Nat} (hfuel : p.config.length < fuel') :
    ∃ p', Parse env' fuel' filename o = .ok p' ∧ p'.status = p.status ∧ p'.errors = [] ∧ List.Forall₂ (Reparsed o bo) p.config p'.config := by
  refine refile hparse herrors hcombine hlexers hmask hbuildable hsame hperm hperm' ?_ hfuel
  intro cfg hc
  obtain ⟨text, data, h1, h2, h3⟩ := hbuilt cfg hc
  have htext : text = fullText isPrint bo cfg := by
    unfold buildText at h1
    rw [C45_body isPrint bo hindent] at h1
    simp only [bind, Option.bind, Option.some.injEq] at h1
    exact h1.symm
  refine ⟨data, ?_, h3⟩
  rw [htext] at h2
  rcases h2 with h2 | h2
  · exact Or.inl h2
  · exact Or.inr (Or.inl h2)

/-! ## On a disk -/

/-- Laws of a disk: `read` gives the text of a file, `file` tells which file a path means.  A call that succeeds changes only the file it is about: creating
a file leaves it empty, writing appends. -/
structure Disk {σ ι : Type} (os : OS σ) (read : σ → Str → Option Str) (file : Str → ι) : Prop where
  mkdir : ∀ {s s' d}, os.mkdirAll s d = (s', none) → ∀ q t, read s q = some t → read s' q = some t
  create : ∀ {s s' p}, os.create s p = (s', none) → read s' p = some [] ∧ ∀ q t, file q ≠ file p → read s q = some t → read s' q = some t
  write : ∀ {s s' p b}, os.write s p b = (s', none) →
    (∀ t, read s p = some t → read s' p = some (t ++ b)) ∧ ∀ q t, file q ≠ file p → read s q = some t → read s' q = some t
  close : ∀ {s s' p}, os.close s p = (s', none) → ∀ q t, read s q = some t → read s' q = some t

/-- The path of a file built into a directory. -/
def buildPath {σ : Type} (os : OS σ) (base : Str) (f : Str) : Str := if os.isAbs f = true then f else os.join base f

theorem runFs_four {σ : Type} {os : OS σ} {a b c d : FsOp} {ops : List FsOp} {s s' : σ} (h : runFs os (a :: b :: c :: d :: ops) s = (none, s')) :
    ∃ s1 s2 s3 s4, a.run os s = (s1, none) ∧ b.run os s1 = (s2, none) ∧ c.run os s2 = (s3, none) ∧ d.run os s3 = (s4, none) ∧ runFs os ops s4 = (none, s') := by
  have one : ∀ {a : FsOp} {ops : List FsOp} {s : σ}, runFs os (a :: ops) s = (none, s') → ∃ s1, a.run os s = (s1, none) ∧ runFs os ops s1 = (none, s') := by
    intro a ops s h
    rw [runFs] at h
    cases ha : a.run os s with
    | mk s1 e =>
      rw [ha] at h
      cases e with
      | none => exact ⟨s1, rfl, h⟩
      | some e => cases h
  obtain ⟨s1, h1, h⟩ := one h
  obtain ⟨s2, h2, h⟩ := one h
  obtain ⟨s3, h3, h⟩ := one h
  obtain ⟨s4, h4, h⟩ := one h
  exact ⟨s1, s2, s3, s4, h1, h2, h3, h4, h⟩

theorem disk_keeps {σ ι : Type} {os : OS σ} {read : σ → Str → Option Str} {file : Str → ι} (hd : Disk os read file) {isPrint : Char → Bool} {base : Str}
    {bo : BuildOptions} {configs : List Config} {ops : List (List FsOp)} (hops : List.Forall₂ (FsOpsOf isPrint os base bo) configs ops) {s s' : σ}
    (h : runFs os ops.flatten s = (none, s')) {q t : Str} (hq : ∀ c ∈ configs, file q ≠ file (buildPath os base c.file)) (hr : read s q = some t) :
    read s' q = some t := by
  induction hops generalizing s with
  | nil => cases h; exact hr
  | @cons c l configs ops ho _ ih =>
    obtain ⟨path, text, rfl, ht, rfl⟩ := ho
    obtain ⟨s1, s2, s3, s4, h1, h2, h3, h4, h5⟩ := runFs_four h
    have hne := hq c (by simp)
    exact ih h5 (fun c hc => hq c (by simp [hc])) (hd.close h4 _ _ ((hd.write h3).2 _ _ hne ((hd.create h2).2 _ _ hne (hd.mkdir h1 _ _ hr))))

/-- After a successful BuildFiles every file has its text. -/
theorem disk_built {σ ι : Type} {os : OS σ} {read : σ → Str → Option Str} {file : Str → ι} (hd : Disk os read file) {isPrint : Char → Bool} {base : Str}
    {bo : BuildOptions} {configs : List Config} {ops : List (List FsOp)} (hops : List.Forall₂ (FsOpsOf isPrint os base bo) configs ops) {s s' : σ}
    (h : runFs os ops.flatten s = (none, s')) (hfiles : (configs.map fun c => file (buildPath os base c.file)).Nodup) :
    ∀ c ∈ configs, ∃ t, Trimmed (fullText isPrint bo c) t ∧ read s' (buildPath os base c.file) = some (t ++ ['\n']) := by
  induction hops generalizing s with
  | nil => simp
  | @cons c l configs ops ho hops ih =>
    obtain ⟨path, text, rfl, ht, rfl⟩ := ho
    obtain ⟨s1, s2, s3, s4, h1, h2, h3, h4, h5⟩ := runFs_four h
    rw [List.map_cons, List.nodup_cons] at hfiles
    intro x hx
    rcases List.mem_cons.mp hx with rfl | hx
    · refine ⟨text, ht, disk_keeps hd hops h5 ?_ (hd.close h4 _ _ ((hd.write h3).1 [] (hd.create h2).1))⟩
      intro c hc e
      exact hfiles.1 (List.mem_map.mpr ⟨c, hc, e.symm⟩)
    · exact ih h5 hfiles.2 x hx

/-- What is on the disk after `BuildFiles`. -/
theorem buildFiles_written {σ ι : Type} {os : OS σ} {read : σ → Str → Option Str} {file : Str → ι} (hdisk : Disk os read file)
    (isPrint : Char → Bool) (bo : BuildOptions) {p : Payload} (hindent : 0 ≤ bo.indent) (hext : bo.extBuilders = none)
    {s s' : σ} {dir base : Str} (hbase : if dir = [] then (os.getwd s).2 = .ok base else base = dir)
    (hbuild : BuildFiles isPrint os s p dir bo = some (none, s')) (hfiles : (p.config.map fun c => file (buildPath os base c.file)).Nodup) :
    ∀ c ∈ p.config, ∃ t, Trimmed (fullText isPrint bo c) t ∧ read s' (buildPath os base c.file) = some (t ++ ['\n']) := by
  by_cases hd : dir = []
  · rw [if_pos hd] at hbase
    subst hd
    rcases C47_cwd isPrint os s p bo hindent hext with ⟨e, h1, h2⟩ | ⟨d, ops, h1, h2, h3⟩
    · rw [h1] at hbase; cases hbase
    · rw [h1] at hbase; cases hbase
      rw [h3] at hbuild
      exact disk_built hdisk h2 (Option.some.inj hbuild) hfiles
  · rw [if_neg hd] at hbase
    subst hbase
    obtain ⟨ops, h2, h3⟩ := C47 isPrint os s p base bo hindent hext hd
    rw [h3] at hbuild
    exact disk_built hdisk h2 (Option.some.inj hbuild) hfiles

/-- C62: a payload that was parsed without errors, following its includes, and that BuildFiles wrote to a disk is given back when the files are parsed with the
same options.  No two configs may be built into one file, and no file may end in a comment with blanks at its end, for BuildFiles drops these. -/
theorem C62_partial {σ ι : Type} {os : OS σ} {read : σ → Str → Option Str} {file : Str → ι} (hdisk : Disk os read file)
    (isPrint : Char → Bool) (bo : BuildOptions) {env : Env} {fuel : Nat} {filename : Str} {o : ParseOptions} {p : Payload}
    (hparse : Parse env fuel filename o = .ok p) (herrors : p.errors = [])
    (hcombine : o.combineConfigs = false) (hlexers : o.lexers = [])
    (hmask : ∀ m, HasMask (sources o) c!"if" m → m.testBit 11 = true ∨ m.testBit 12 = true)
    (hbuildable : ∀ cfg ∈ p.config, Rebuildable isPrint bo cfg.parsed) (hblank : ∀ cfg ∈ p.config, NoBlankEnd cfg.parsed)
    (hindent : 0 ≤ bo.indent) (hext : bo.extBuilders = none)
    {s s' : σ} {dir base : Str} (hbase : if dir = [] then (os.getwd s).2 = .ok base else base = dir)
    (hbuild : BuildFiles isPrint os s p dir bo = some (none, s')) (hfiles : (p.config.map fun c => file (buildPath os base c.file)).Nodup)
    {env' : Env} (hsame : SamePaths env env') (hperm : ∀ l, (env.mapOrder l).Perm l) (hperm' : ∀ l, (env'.mapOrder l).Perm l)
    (hread : ∀ n f text, read s' (buildPath os base f) = some text → env'.openFile n f = .ok { runes := text })
    {fuel' : Nat} (hfuel : p.config.length < fuel') :
    ∃ p', Parse env' fuel' filename o = .ok p' ∧ p'.status = p.status ∧ p'.errors = [] ∧ List.Forall₂ (Reparsed o bo) p.config p'.config := by
  have hbuilt := buildFiles_written hdisk isPrint bo hindent hext hbase hbuild hfiles
  refine refile hparse herrors hcombine hlexers hmask hbuildable hsame hperm hperm' ?_ hfuel
  intro cfg hc
  obtain ⟨t, h1, h2⟩ := hbuilt cfg hc
  exact ⟨{ runes := t ++ ['\n'] }, Or.inr (Or.inr ⟨hblank cfg hc, t, h1, rfl⟩), fun n => hread n _ _ h2⟩

/-! ## Checking the conditions of a tree -/

mutual
/-- All directives of a tree. -/
def everyDir : List Directive → List Directive
  | [] => []
  | d :: ds => d :: (everyInner d ++ everyDir ds)
def everyInner : Directive → List Directive
  | ⟨_, _, _, _, _, b, _, _⟩ => everyBlock b
def everyBlock : Option (List Directive) → List Directive
  | none => []
  | some b => everyDir b
end

theorem everyInner_eq (d : Directive) : everyInner d = everyBlock d.block := by cases d; rfl

theorem within_everyDir {d : Directive} {ds : List Directive} (h : Within d ds) : d ∈ everyDir ds := by
  induction h with
  | @here ds h =>
    induction ds with
    | nil => cases h
    | cons x ds ih =>
      rw [everyDir]
      rcases List.mem_cons.mp h with rfl | h
      · simp
      · simp [ih h]
  | @deep ds d' b hm hb h ih =>
    clear h
    induction ds with
    | nil => cases hm
    | cons x ds ih2 =>
      rw [everyDir, everyInner_eq]
      rcases List.mem_cons.mp hm with rfl | hm
      · rw [hb]; simp [everyBlock, ih]
      · simp [ih2 hm]

/-- A directive that is no comment, has plain strings and is no odd `if`. -/
def plainDir (isPrint : Char → Bool) (d : Directive) : Bool :=
  decide (IsComment d) ||
    ((d.directive :: d.args).all (fun s => s.all isPrint && !s.contains '\\' && s.head? != some '#') &&
      (d.directive != c!"if" || (!d.isMapBlockParameter && match d.args with | [] => false | a :: _ => !needsQuote a)))

/-- No comment right after another one on the same line. -/
def apart : List Directive → Bool
  | x :: y :: ds => !(decide (IsComment x) && decide (IsComment y) && x.line == y.line) && apart (y :: ds)
  | _ => true

theorem apart_spec {l : List Directive} (h : apart l = true) : ∀ a x y b, l = a ++ x :: y :: b → IsComment x → IsComment y → x.line ≠ y.line := by
  intro a
  induction a generalizing l with
  | nil =>
    rintro x y b rfl hx hy e
    rw [List.nil_append, apart] at h
    simp [hx, hy, e] at h
  | cons z a ih =>
    rintro x y b rfl
    refine ih (l := a ++ x :: y :: b) ?_ x y b rfl
    cases a <;> (simp only [List.cons_append, List.nil_append, apart, Bool.and_eq_true] at h ⊢; first | exact h.2 | simp_all)

/-- A tree whose directives have plain strings, whose comments are apart and for which no builder is registered. -/
theorem rebuildable_plain {isPrint : Char → Bool} (hcr : isPrint '\r' = false) {o : BuildOptions} (hb : ∀ n, (buildSetup o).ext n = none) {ds : List Directive}
    (h : (everyDir ds).all (plainDir isPrint) = true) (ha : (ds :: (everyDir ds).filterMap (·.block)).all apart = true) : Rebuildable isPrint o ds := by
  rw [List.all_eq_true] at h ha
  refine ⟨?_, ?_, ?_, ?_⟩
  · intro d hd hc
    have := h d (within_everyDir hd)
    simp only [plainDir, Bool.or_eq_true, decide_eq_true_eq, hc, false_or, Bool.and_eq_true, List.all_eq_true, bne_iff_ne, Bool.not_eq_true',
      List.contains_eq_mem, decide_eq_false_iff_not] at this
    obtain ⟨h1, h2⟩ := this
    refine ⟨fun s hs => plain_token isPrint (h1 s hs).1.1 hcr (h1 s hs).1.2 (h1 s hs).2, ?_, ?_, ?_⟩
    · intro hn e
      rw [e] at h2
      rcases h2 with h2 | h2
      · exact h2 hn
      · cases h2.2
    · intro hn a as e
      rw [e] at h2
      rcases h2 with h2 | h2
      · exact absurd hn h2
      · simpa using h2.2
    · intro hn as l e hq xs x ex
      exact needsQuote_no_space (h1 l (by simp [e])).1.2 hq x (by simp [ex])
  · intro d hd hp hn
    have := h d (within_everyDir hd)
    simp only [plainDir, Bool.or_eq_true, decide_eq_true_eq, Bool.and_eq_true, bne_iff_ne, Bool.not_eq_true'] at this
    rcases this with hc | ⟨-, h2 | h2⟩
    · have := hc.1; rw [hn] at this; cases this
    · exact h2 hn
    · rw [hp] at h2; cases h2.1
  · intro l hl
    refine apart_spec (ha l ?_)
    rcases hl with rfl | ⟨d, hd, hbl⟩
    · simp
    · exact List.mem_cons_of_mem _ (List.mem_filterMap.mpr ⟨d, within_everyDir hd, hbl⟩)
  · exact fun d _ => hb _

/-! ## An example -/

/-- A file including another one. -/
def exMain : Str := c!"user \"x y\";\n\n\nhttp { # c\n  include /e/s; }"

def exMainTree : List Directive := [dir c!"user" 1 [c!"x y"], blk c!"http" 4 [] [{ dir c!"#" 4 [] with comment := some c!" c" }, incl 5 c!"/e/s" [1]]]

def exSub : Str := c!"server\n{\nlocation 'a'{}}"

def exSubTree : List Directive := [blk c!"server" 1 [] [blk c!"location" 3 [c!"a"] []]]

/-- Options with this source and comments. -/
def exOptsC : ParseOptions := { exOpts with parseComments := true }

theorem exFiles_parse : Parse (exEnv [(c!"/e/m", exMain), (c!"/e/s", exSub)]) 5 c!"/e/m" exOptsC = .ok (okPayload [(c!"/e/m", exMainTree), (c!"/e/s", exSubTree)]) := by
  decide +kernel

theorem exOptsC_if : ∀ m, HasMask (sources exOptsC) c!"if" m → m.testBit 11 = true ∨ m.testBit 12 = true := by
  rintro m ⟨f, hf, ms, hm, hmem⟩
  simp [sources, exOptsC, exOpts] at hf
  subst hf
  have : ms = [ngxHTTPSrvConf ||| ngxHTTPLocConf ||| ngxConfBlock ||| ngxConfExpr ||| ngxConf1More] := by
    have e : exSource c!"if" = some [ngxHTTPSrvConf ||| ngxHTTPLocConf ||| ngxConfBlock ||| ngxConfExpr ||| ngxConf1More] := by decide +kernel
    rw [e] at hm; cases hm; rfl
  subst this
  simp at hmem
  subst hmem
  decide +kernel

theorem exMain_rebuildable : Rebuildable exPrint { tabs := true, header := true } exMainTree := rebuildable_plain rfl (fun _ => rfl) (by decide +kernel) (by decide +kernel)

theorem exSub_rebuildable : Rebuildable exPrint { tabs := true, header := true } exSubTree := rebuildable_plain rfl (fun _ => rfl) (by decide +kernel) (by decide +kernel)

/-- The built texts. -/
def exMainBuilt : Str := fullText exPrint { tabs := true, header := true } { file := c!"/e/m", status := c!"ok", parsed := exMainTree }

def exSubBuilt : Str := fullText exPrint { tabs := true, header := true } { file := c!"/e/s", status := c!"ok", parsed := exSubTree }

example : exMainBuilt = header ++ c!"user \"x y\";\nhttp { # c\n\tinclude /e/s;\n}" := by decide +kernel

example : ∃ p', Parse (exEnv [(c!"/e/m", exMainBuilt), (c!"/e/s", exSubBuilt)]) 3 c!"/e/m" exOptsC = .ok p' ∧ p'.status = c!"ok" ∧ p'.errors = [] ∧
    List.Forall₂ (Reparsed exOptsC { tabs := true, header := true }) (okPayload [(c!"/e/m", exMainTree), (c!"/e/s", exSubTree)]).config p'.config := by
  refine C62_files_partial exPrint { tabs := true, header := true } (env := exEnv [(c!"/e/m", exMain), (c!"/e/s", exSub)]) (fuel := 5)
    (p := okPayload [(c!"/e/m", exMainTree), (c!"/e/s", exSubTree)]) exFiles_parse rfl rfl rfl exOptsC_if ?_ (Int.le_refl 0) ⟨by simp only [exEnv], by simp only [exEnv], by simp only [exEnv], ?_⟩
    (fun _ => List.Perm.refl _) (fun _ => List.Perm.refl _) ?_ (Nat.le_refl 3)
  · intro cfg hc
    simp [okPayload] at hc
    rcases hc with rfl | rfl
    · exact exMain_rebuildable
    · exact exSub_rebuildable
  · funext n a; simp [exEnv]
  · intro cfg hc
    simp [okPayload] at hc
    rcases hc with rfl | rfl
    · exact ⟨exMainBuilt, { runes := exMainBuilt }, by decide +kernel, Or.inl rfl, fun _ => rfl⟩
    · exact ⟨exSubBuilt, { runes := exSubBuilt }, by decide +kernel, Or.inl rfl, fun _ => rfl⟩

/-- A disk: the texts of the files. -/
def exDisk : OS (Str → Option Str) where
  getwd := fun s => (s, .ok c!"/e")
  mkdirAll := fun s _ => (s, none)
  create := fun s p => (fun q => if q = p then some [] else s q, none)
  write := fun s p b => (fun q => if q = p then (s q).map (· ++ b) else s q, none)
  close := fun s _ => (s, none)
  isAbs := fun f => hasPrefix f c!"/"
  join := fun d f => d ++ c!"/" ++ f
  dir := fun _ => c!"/"

theorem exDisk_disk : Disk exDisk (fun s => s) id where
  mkdir := by intro s s' d h q t hr; cases h; exact hr
  create := by
    intro s s' p h; cases h
    refine ⟨if_pos rfl, fun q t hq hr => ?_⟩
    exact (if_neg hq).trans hr
  write := by
    intro s s' p b h; cases h
    refine ⟨fun t hr => ?_, fun q t hq hr => ?_⟩
    · exact (if_pos rfl).trans (by rw [hr]; rfl)
    · exact (if_neg hq).trans hr
  close := by intro s s' p h q t hr; cases h; exact hr

/-- Reading from this disk. -/
def exDiskEnv (s : Str → Option Str) (env : Env) : Env :=
  { env with openFile := fun _ f => match s (buildPath exDisk c!"/e" f) with
    | some t => .ok { runes := t }
    | none => .error (.other c!"no such file") }

example : (BuildFiles exPrint exDisk (fun _ => none) (okPayload [(c!"/e/m", exMainTree), (c!"/e/s", exSubTree)]) [] { tabs := true }).map
    (fun r => (r.1, r.2 c!"/e/m", r.2 c!"/e/s")) =
    some (none, some c!"user \"x y\";\nhttp { # c\n\tinclude /e/s;\n}\n", some c!"server {\n\tlocation a {\n\t}\n}\n") := by decide +kernel

example (s' : Str → Option Str)
    (h : BuildFiles exPrint exDisk (fun _ => none) (okPayload [(c!"/e/m", exMainTree), (c!"/e/s", exSubTree)]) [] { tabs := true, header := true } = some (none, s')) :
    ∃ p', Parse (exDiskEnv s' (exEnv [(c!"/e/m", exMain), (c!"/e/s", exSub)])) 3 c!"/e/m" exOptsC = .ok p' ∧ p'.status = c!"ok" ∧ p'.errors = [] ∧
    List.Forall₂ (Reparsed exOptsC { tabs := true, header := true }) (okPayload [(c!"/e/m", exMainTree), (c!"/e/s", exSubTree)]).config p'.config := by
  refine C62_partial exDisk_disk exPrint { tabs := true, header := true } (env := exEnv [(c!"/e/m", exMain), (c!"/e/s", exSub)]) (fuel := 5)
    (p := okPayload [(c!"/e/m", exMainTree), (c!"/e/s", exSubTree)]) exFiles_parse rfl rfl rfl exOptsC_if ?_ ?_ (Int.le_refl 0) rfl
    (s := fun _ => none) (s' := s') (dir := []) (base := c!"/e") (by rw [if_pos rfl]; rfl) h ?_ (env' := exDiskEnv s' (exEnv [(c!"/e/m", exMain), (c!"/e/s", exSub)])) ?_ (fun _ => List.Perm.refl _) (fun _ => List.Perm.refl _) ?_ (Nat.le_refl 3)
  · intro cfg hc
    simp [okPayload] at hc
    rcases hc with rfl | rfl
    · exact exMain_rebuildable
    · exact exSub_rebuildable
  · intro cfg hc
    simp [okPayload] at hc
    rcases hc with rfl | rfl
    · rintro a d e hd
      obtain rfl : d = blk c!"http" 4 [] [{ dir c!"#" 4 [] with comment := some c!" c" }, incl 5 c!"/e/s" [1]] := by
        have := congrArg List.getLast? e
        simpa [exMainTree] using this.symm
      exact absurd rfl hd.2
    · rintro a d e hd
      obtain rfl : d = blk c!"server" 1 [] [blk c!"location" 3 [c!"a"] []] := by
        have := congrArg List.getLast? e
        simpa [exSubTree] using this.symm
      exact absurd rfl hd.2
  · decide +kernel
  · constructor <;> simp only [exDiskEnv]
  · intro n f text hr
    have hr' : s' (buildPath exDisk c!"/e" f) = some text := hr
    simp only [exDiskEnv]
    rw [hr']

/-- C62 is false of a file that ends in a comment with a blank at its end: BuildFiles drops the blank. -/
theorem C62_false_blank : ∃ (env : Env) (p : Payload) (s' : Str → Option Str), Parse env 2 c!"/e/f" exFree = .ok p ∧ p.errors = [] ∧
    (∀ cfg ∈ p.config, Rebuildable exPrint {} cfg.parsed) ∧ BuildFiles exPrint exDisk (fun _ => none) p [] {} = some (none, s') ∧
    ∀ p', Parse (exDiskEnv s' env) 2 c!"/e/f" exFree = .ok p' → ¬ List.Forall₂ (Reparsed exFree {}) p.config p'.config := by
  have hb : ∀ r : Option (Option GoErr × (Str → Option Str)), r.map (·.1) = some none → r = some (none, (r.getD (none, fun _ => none)).2) := by
    intro r hr
    cases r with
    | none => cases hr
    | some r => obtain ⟨e, f⟩ := r; cases hr; rfl
  refine ⟨exEnv [(c!"/e/f", c!"a;\n#x ")], okPayload [(c!"/e/f", [dir c!"a" 1 [], { dir c!"#" 2 [] with comment := some c!"x " }])],
    _, by decide +kernel, rfl, ?_, hb _ (by decide +kernel), ?_⟩
  · intro cfg hc
    simp [okPayload] at hc
    subst hc
    exact rebuildable_plain rfl (fun _ => rfl) (by decide +kernel) (by decide +kernel)
  · intro p' h hp
    rw [show Parse (exDiskEnv ((BuildFiles exPrint exDisk (fun _ => none) (okPayload [(c!"/e/f", [dir c!"a" 1 [], { dir c!"#" 2 [] with comment := some c!"x " }])])
        [] {}).getD (none, fun _ => none)).2 (exEnv [(c!"/e/f", c!"a;\n#x ")])) 2 c!"/e/f" exFree =
      .ok (okPayload [(c!"/e/f", [dir c!"a" 1 [], { dir c!"#" 2 [] with comment := some c!"x" }])]) by decide +kernel] at h
    cases h
    cases hp with
    | cons h _ =>
      have := h.parsed
      cases this with
      | leaf _ h2 => cases h2

end Verif
