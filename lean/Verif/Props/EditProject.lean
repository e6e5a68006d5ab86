import Verif.Props.Edit
import Verif.Props.Project
/-!
# C97: an edit of one file of a configuration
-/
namespace Verif
open Spec

theorem unlink_commentsAt (b : Bool) (line : Int) (texts : List Str) :
    unlink (if b then commentsAt line texts else []) = if b then commentsAt line texts else [] := by
  cases b with
  | false => rfl
  | true =>
    simp only [if_true]
    induction texts with
    | nil => rfl
    | cons t texts ih =>
      show unlink (_ :: commentsAt line texts) = _ :: commentsAt line texts
      rw [unlink_cons, ih]
      rfl

/-- The trees of the grammar have no links. -/
theorem Spec.Conf.unlinked {r : Rules} {ctx : List Str} {ds : List Directive} {toks : List Tok} (h : Conf r ctx ds toks) : unlink ds = ds := by
  induction h with
  | nil => rfl
  | comment _ _ _ ih => rw [unlink_cons, ih]; rfl
  | skip _ _ _ ih => exact ih
  | param _ _ _ _ _ _ ih => rw [unlink_cons, ih]; rfl
  | ignored _ _ _ _ _ _ ih => exact ih
  | ignoredBlock _ _ _ _ _ _ _ _ ih => exact ih
  | simple _ _ _ _ _ _ _ _ _ ih => rw [unlink_cons, unlink_append, unlink_commentsAt, ih]; rfl
  | block _ _ _ _ _ _ _ _ _ _ _ ih1 ih2 =>
    rw [unlink_cons, unlink_append, unlink_commentsAt, ih2, setLinks_dir]
    simp only [Option.map_some]
    have : setLinksList (fun _ _ _ => none) _ = _ := ih1
    rw [this]

theorem refsList_link (N : List Str → Option (List Str)) (F : List Str) (c : List Str) (ds : List Directive) : refsList N c (link N F ds) = refsList N c ds := by
  unfold link
  rw [refsList_eq, refsList_eq, setLinksList_eq, List.flatMap_map]
  exact List.flatMap_congr fun d _ => refs_setLinks N _ d c

theorem link_twice (N : List Str → Option (List Str)) (F : List Str) (ds : List Directive) : link N F (link N F ds) = link N F ds := by
  unfold link
  simp only [setLinksList_eq, List.map_map]
  exact List.map_congr_left fun d _ => setLinks_twice _ _ d

theorem unlink_link (N : List Str → Option (List Str)) (F : List Str) (ds : List Directive) : unlink (link N F ds) = unlink ds := by
  unfold link unlink
  simp only [setLinksList_eq, List.map_map]
  exact List.map_congr_left fun d _ => setLinks_twice _ _ d

/-- One file of a project is replaced by another that includes the same files, in the same order and contexts. -/
theorem Spec.Project.replace {toks toks' : Str → Option (List Tok)} {r : Rules} {start : Str} {a b : List SourceFile} {f : SourceFile} {tree : List Directive} {ts : List Tok}
    (h : Project toks r start (a ++ f :: b)) (hsame : ∀ g, g ≠ f.name → toks' g = toks g) (hnew : toks' f.name = some ts) (he : ∀ t ∈ ts, t.error = none)
    (hc : Conf r f.ctx tree ts) (hr : refsList r.names f.ctx tree = refsList r.names f.ctx f.tree) :
    Project toks' r start (a ++ ⟨f.name, f.ctx, link r.names ((a ++ f :: b).map (·.name)) tree⟩ :: b) := by
  obtain ⟨F, hF⟩ : ∃ F, (a ++ f :: b).map (·.name) = F := ⟨_, rfl⟩
  rw [hF]
  obtain ⟨f', hf'⟩ : ∃ f' : SourceFile, (⟨f.name, f.ctx, link r.names F tree⟩ : SourceFile) = f' := ⟨_, rfl⟩
  have hn : f'.name = f.name := by rw [← hf']
  have hx : f'.ctx = f.ctx := by rw [← hf']
  have ht : f'.tree = link r.names F tree := by rw [← hf']
  have hrefs : f'.refs r.names = f.refs r.names := by
    show refsList _ _ _ = refsList _ _ _
    rw [hx, ht, refsList_link, hr]
  rw [hf']
  let key : SourceFile → Str × List Str × List Ref := fun g => (g.name, g.ctx, g.refs r.names)
  have hkey : (a ++ f' :: b).map key = (a ++ f :: b).map key := by
    simp only [List.map_append, List.map_cons]
    rw [show key f' = key f by simp only [key, hn, hx, hrefs]]
  have hkm : ∀ {g : SourceFile} {l l' : List SourceFile}, l.map key = l'.map key → g ∈ l → ∃ g' ∈ l', key g' = key g := by
    intro g l l' e hg
    have : key g ∈ l'.map key := by rw [← e]; exact List.mem_map_of_mem hg
    obtain ⟨g', hg', e'⟩ := List.mem_map.mp this
    exact ⟨g', hg', e'⟩
  have hnd : ((a ++ f :: b).map (·.name)).Nodup := by
    have := collect_nodup ((a ++ f :: b).flatMap (·.refs r.names)) (k := [(start, [])]) (by simp)
    rw [← h.files] at this
    simpa [List.map_map, Function.comp_def] using this
  have hother : ∀ g, g ∈ a ∨ g ∈ b → g.name ≠ f.name := by
    intro g hg e
    rw [List.map_append, List.map_cons, List.nodup_append] at hnd
    obtain ⟨-, h2, h3⟩ := hnd
    rcases hg with hg | hg
    · exact h3 _ (List.mem_map_of_mem hg) _ (List.mem_cons_self ..) e
    · exact (List.nodup_cons.mp h2).1 (by rw [← e]; exact List.mem_map_of_mem hg)
  have hFn : (a ++ f' :: b).map (·.name) = F := by rw [← hF]; simp [hn]
  refine ⟨?_, ?_, ?_, ?_, ?_⟩
  · have e1 : (a ++ f' :: b).map (fun f => (f.name, f.ctx)) = (a ++ f :: b).map (fun f => (f.name, f.ctx)) := by simp [hn, hx]
    have e2 : (a ++ f' :: b).flatMap (·.refs r.names) = (a ++ f :: b).flatMap (·.refs r.names) := by simp [hrefs]
    rw [e1, e2]
    exact h.files
  · intro p g q e hp
    have e' : (a ++ f :: b).map key = p.map key ++ key g :: q.map key := by rw [← hkey, e]; simp
    obtain ⟨p', s', e1, e2, e3⟩ := List.map_eq_append_iff.mp e'
    obtain ⟨g', q', rfl, e4, e5⟩ := List.map_eq_cons_iff.mp e3
    obtain ⟨g2, hg2, hm⟩ := h.earlier p' g' q' e1 (by rintro rfl; simp at e2; exact hp (by simpa using e2))
    obtain ⟨g3, hg3, e6⟩ := hkm e2 hg2
    have e4' := congrArg Prod.fst e4
    have e6' := congrArg (fun x => x.2.2) e6
    simp only [key] at e4' e6'
    refine ⟨g3, hg3, ?_⟩
    rw [← e4', e6']
    exact hm
  · intro g hg
    rcases List.mem_append.mp hg with hg | hg
    · obtain ⟨ts', h1, h2, h3⟩ := h.conf g (List.mem_append_left _ hg)
      exact ⟨ts', by rw [hsame _ (hother g (.inl hg))]; exact h1, h2, h3⟩
    · rcases List.mem_cons.mp hg with rfl | hg
      · refine ⟨ts, by rw [hn]; exact hnew, he, ?_⟩
        rw [hx, ht, unlink_link, hc.unlinked]
        exact hc
      · obtain ⟨ts', h1, h2, h3⟩ := h.conf g (List.mem_append_right _ (.tail _ hg))
        exact ⟨ts', by rw [hsame _ (hother g (.inr hg))]; exact h1, h2, h3⟩
  · intro g hg
    rw [hFn]
    rcases List.mem_append.mp hg with hg | hg
    · rw [← hF]; exact h.linked g (List.mem_append_left _ hg)
    · rcases List.mem_cons.mp hg with rfl | hg
      · rw [ht, link_twice]
      · rw [← hF]; exact h.linked g (List.mem_append_right _ (.tail _ hg))
  · intro c hcyc
    refine h.acyclic c (Relation.TransGen.mono (fun u v huv => ?_) _ _ hcyc)
    obtain ⟨g, hg, e1, e2⟩ := huv
    obtain ⟨g', hg', e⟩ := hkm hkey hg
    have e3 := congrArg Prod.fst e
    have e4 := congrArg (fun x => x.2.2) e
    simp only [key] at e3 e4
    exact ⟨g', hg', e3.trans e1, by rw [e4]; exact e2⟩

/-! ## Includes of trees that differ at one place -/

theorem refsList_later (N : List Str → Option (List Str)) (n : Int) (ds : List Directive) : ∀ c, refsList N c (laterList n ds) = refsList N c ds := by
  have key : ∀ d : Directive, ∀ c, refs N c (later n d) = refs N c d := by
    intro d
    induction d using Directive.ind with
    | h dd dl da df di db dc dm ih =>
      intro c
      have hl : ∀ l : List Directive, (∀ d ∈ l, ∀ c, refs N c (later n d) = refs N c d) → ∀ c, refsList N c (laterList n l) = refsList N c l := by
        intro l hl c
        induction l with
        | nil => rfl
        | cons d l ihl => rw [laterList, refsList, refsList, hl d (.head _), ihl fun x hx => hl x (.tail _ hx)]
      cases db with
      | none => rfl
      | some ds => simp only [later, laterOpt, refs, refsOpt, hl ds (ih ds rfl)]
  intro c
  induction ds with
  | nil => rfl
  | cons d ds ih => rw [laterList, refsList, refsList, key, ih]

theorem Spec.Exchanged.refs {N : List Str → Option (List Str)} {n : Int} {x y ds ds' : List Directive} (h : Exchanged n x y ds ds') (hxy : ∀ c, refsList N c x = refsList N c y) :
    ∀ c, refsList N c ds = refsList N c ds' := by
  induction h with
  | here => intro c; simp only [refsList_append, refsList_later, hxy]
  | inside _ _ ih =>
    intro c
    simp only [refsList_append, refsList, refs_dir, Option.getD_some, refsList_later, ih]

section
variable {env env' : Env} {fuel : Nat} {filename : Str} {o : ParseOptions} {text text' : Str → Option FileData} {matching : Str → Option (List Str)} {a b : List SourceFile}
  {f : SourceFile} {new : FileData}

/-- Two file systems that do not change during the parse, with the same file names; they differ in the contents of the file `name`, which is `new` in the second one. -/
structure Changed (env env' : Env) (o : ParseOptions) (text text' : Str → Option FileData) (matching : Str → Option (List Str)) (name : Str) (new : FileData) : Prop where
  before : Followed env o text matching
  after : Followed env' o text' matching
  isAbs : env'.isAbs = env.isAbs
  join : env'.join = env.join
  dir : env'.dir = env.dir
  isFile : (text name).isSome = true
  changed : text' name = some new
  same : ∀ g, g ≠ name → text' g = text g

theorem Changed.names (h : Changed env env' o text text' matching f.name new) :
    diskNames env' (env'.dir filename) text' matching = diskNames env (env.dir filename) text matching := by
  have e : (fun f => (text' f).isSome) = fun f => (text f).isSome := by
    funext g
    by_cases hg : g = f.name
    · rw [hg, h.changed, h.isFile]; rfl
    · rw [h.same g hg]
  unfold diskNames
  rw [h.isAbs, h.join, h.dir, e]

/-- C97.  A file of a configuration without errors is replaced by another one that is a configuration in the same context and includes the same files, in the same order and contexts.
Then only its tree changes in the payload. -/
theorem C97_replace (h : Changed env env' o text text' matching f.name new) (hp : IsProject env o text matching filename (a ++ f :: b)) (hfresh : ∀ g ∈ a ++ f :: b, Fresh g.ctx.length)
    (hf : (a ++ f :: b).length < fuel) {tree : List Directive} (he : ∀ t ∈ fileToks o new, t.error = none) :
    let N := diskNames env (env.dir filename) text matching
    Conf (rulesOf o N) f.ctx tree (fileToks o new) → refsList N f.ctx tree = refsList N f.ctx f.tree →
    Parse env' fuel filename o = .ok (okPayload (a.map (fun g => (g.name, g.tree)) ++ (f.name, link N ((a ++ f :: b).map (·.name)) tree) :: b.map (fun g => (g.name, g.tree)))) := by
  intro N hc hr
  have hp' : IsProject env' o text' matching filename (a ++ ⟨f.name, f.ctx, link N ((a ++ f :: b).map (·.name)) tree⟩ :: b) := by
    unfold IsProject
    rw [h.names (filename := filename)]
    refine Spec.Project.replace (ts := fileToks o new) hp (fun g hg => ?_) ?_ he hc hr
    · rw [h.same g hg]
    · rw [h.changed]; rfl
  have := C71_complete h.after (fuel := fuel) (by simpa using hf) (fun g hg => ?_) hp'
  · simpa using this
  · rcases List.mem_append.mp hg with hg | hg
    · exact hfresh g (List.mem_append_left _ hg)
    · rcases List.mem_cons.mp hg with rfl | hg
      · exact hfresh f (by simp)
      · exact hfresh g (List.mem_append_right _ (.tail _ hg))

/-- C97.  Some statements of a file of a configuration without errors are replaced by others, which are acceptable in the context of the block they stand in and include the same
files (for instance: none).  Then there is no error, and in the payload nothing changes but the tree of this file, at one place, and the lines after it. -/
theorem C97_edit (h : Changed env env' o text text' matching f.name new) (hl : o.lexers = []) (hi : o.ignoreDirectives = [])
    (hp : IsProject env o text matching filename (a ++ f :: b)) (hfresh : ∀ g ∈ a ++ f :: b, Fresh g.ctx.length) (hf : (a ++ f :: b).length < fuel)
    {old : FileData} {pre s s' post : Str} (hold : text f.name = some old) (e1 : old.runes = pre ++ (s ++ post)) (e2 : new.runes = pre ++ (s' ++ post))
    (hpre : Boundary lex pre) (hs : StmtText s) (hs' : StmtText s') :
    let N := diskNames env (env.dir filename) text matching
    let ctx := contextAt ((lex pre).filter (·.error == none)) f.ctx
    ∃ x, Conf (rulesOf o N) ctx x (lex s) ∧ ∀ y, Conf (rulesOf o N) ctx y (lex s') → (∀ c, refsList N c x = refsList N c y) →
      ∃ tree, Exchanged (nls s' - nls s) (laterList (nls pre) x) (laterList (nls pre) y) (unlink f.tree) tree ∧
        Parse env' fuel filename o =
          .ok (okPayload (a.map (fun g => (g.name, g.tree)) ++ (f.name, link N ((a ++ f :: b).map (·.name)) tree) :: b.map (fun g => (g.name, g.tree)))) := by
  intro N ctx
  obtain ⟨ts, k1, k2, k3⟩ := hp.conf f (by simp)
  rw [hold] at k1
  cases k1
  rw [fileToks_lex hl, e1] at k2 k3
  obtain ⟨hin, -, x, hx, h1, -⟩ := edit_toks (s' := s') (r := rulesOf o N) hi hpre hs hs' k2 k3
  refine ⟨x, hx, fun y hy hxy => ?_⟩
  obtain ⟨d, hd, hd1⟩ := h1 y [] hy.recover
  refine ⟨d, hd, C97_replace h hp hfresh hf (by rw [fileToks_lex hl, e2]; exact hin) (by rw [fileToks_lex hl, e2]; exact hd1.conf rfl) ?_⟩
  rw [← hd.refs (N := N) (fun c => by rw [refsList_later, refsList_later, hxy]) f.ctx, refsList_unlink]

theorem conf_comments_refs (N : List Str → Option (List Str)) {r : Rules} {ctx : List Str} {toks : List Tok} (h : Comments toks) :
    ∃ y, Conf r ctx y toks ∧ (∀ d ∈ y, d.directive = c!"#") ∧ (r.comments = false → y = []) ∧ ∀ c, refsList N c y = [] := by
  induction toks with
  | nil => exact ⟨[], .nil, by simp, fun _ => rfl, fun _ => rfl⟩
  | cons t toks ih =>
    obtain ⟨y, h1, h2, h3, h4⟩ := ih fun t ht => h t (.tail _ ht)
    obtain ⟨text, hc⟩ := h t (.head _)
    cases hr : r.comments with
    | true =>
      refine ⟨_, .comment hr hc h1, ?_, by simp, ?_⟩
      · intro d hd
        rcases List.mem_cons.mp hd with rfl | hd
        · rfl
        · exact h2 d hd
      · intro c
        rw [refsList, h4, List.append_nil]
        rfl
    | false => exact ⟨y, .skip hr hc h1, h2, fun _ => h3 hr, h4⟩

/-- C97.  If statements of a file that include nothing are deleted, or replaced by comments, there is no error, and in the payload nothing changes but the tree of this file, where
their directives are missing, and the lines after it. -/
theorem C97_without (h : Changed env env' o text text' matching f.name new) (hl : o.lexers = []) (hi : o.ignoreDirectives = [])
    (hp : IsProject env o text matching filename (a ++ f :: b)) (hfresh : ∀ g ∈ a ++ f :: b, Fresh g.ctx.length) (hf : (a ++ f :: b).length < fuel)
    {old : FileData} {pre s s' post : Str} (hold : text f.name = some old) (e1 : old.runes = pre ++ (s ++ post)) (e2 : new.runes = pre ++ (s' ++ post))
    (hpre : Boundary lex pre) (hs : StmtText s) (hs' : StmtText s') (hcom : ∀ t ∈ lex s', ∃ text, CommentTok t text) :
    let N := diskNames env (env.dir filename) text matching
    ∃ x, Conf (rulesOf o N) (contextAt ((lex pre).filter (·.error == none)) f.ctx) x (lex s) ∧ ((∀ c, refsList N c x = []) →
      ∃ y tree, (∀ d ∈ y, d.directive = c!"#") ∧ (o.parseComments = false → y = []) ∧
        Exchanged (nls s' - nls s) (laterList (nls pre) x) (laterList (nls pre) y) (unlink f.tree) tree ∧
        Parse env' fuel filename o =
          .ok (okPayload (a.map (fun g => (g.name, g.tree)) ++ (f.name, link N ((a ++ f :: b).map (·.name)) tree) :: b.map (fun g => (g.name, g.tree))))) := by
  intro N
  obtain ⟨x, hx, h1⟩ := C97_edit h hl hi hp hfresh hf hold e1 e2 hpre hs hs'
  refine ⟨x, hx, fun hnone => ?_⟩
  obtain ⟨y, k1, k2, k3, k4⟩ := conf_comments_refs N (r := rulesOf o N) (ctx := contextAt ((lex pre).filter (·.error == none)) f.ctx) hcom
  obtain ⟨tree, g1, g2⟩ := h1 y k1 fun c => by rw [k4]; exact hnone c
  exact ⟨y, tree, k2, k3, g1, g2⟩

end

/-! ## Examples -/

/-- `exTwo` with another statement in the second file. -/
def exTwoNew : List (Str × Str) := [(c!"/e/n", c!"http{include a;include a;}"), (c!"/e/a", c!"z{w;}")]

theorem exTwo_changed : Changed (exEnv exTwo) (exEnv exTwoNew) exOpts (exTexts exTwo) (exTexts exTwoNew) (exMatching exTwo) c!"/e/a" { runes := c!"z{w;}" } where
  before := exTwo_followed
  after := ⟨fun _ => List.Perm.refl _, exEnv_readOnly exTwoNew (by decide +kernel), rfl, rfl⟩
  isAbs := rfl
  join := rfl
  dir := rfl
  isFile := rfl
  changed := rfl
  same := by
    intro g hg
    simp only [exTexts, exTwo, exTwoNew, List.lookup]
    split
    · rfl
    · have : (g == c!"/e/a") = false := by simpa using hg
      rw [this]

/-- The tree of the first file, with its links, is as before; the second one has a block now. -/
example : Parse (exEnv exTwoNew) 3 c!"/e/n" exOpts =
    .ok (okPayload [(c!"/e/n", [blk c!"http" 1 [] [incl 1 c!"a" [1], incl 1 c!"a" [1]]]), (c!"/e/a", [blk c!"z" 1 [] [dir c!"w" 1 []]])]) := by
  refine C97_replace (a := [⟨c!"/e/n", [], [blk c!"http" 1 [] [incl 1 c!"a" [1], incl 1 c!"a" [1]]]⟩]) (f := ⟨c!"/e/a", [c!"http"], [dir c!"x" 1 [c!"y"]]⟩) (b := [])
    (tree := [blk c!"z" 1 [] [dir c!"w" 1 []]]) exTwo_changed exTwo_project ?_ (by decide) (by decide +kernel) ?_ (by decide +kernel)
  · intro f hf
    rcases List.mem_cons.mp hf with rfl | hf
    · exact Or.inl (Nat.zero_le _)
    · obtain rfl := List.mem_singleton.mp hf
      exact Or.inl (Nat.le_refl _)
  · have hl : lex c!"z{w;}" = [⟨c!"z", 1, false, none⟩, ⟨c!"{", 1, false, none⟩, ⟨c!"w", 1, false, none⟩, ⟨c!";", 1, false, none⟩, ⟨c!"}", 1, false, none⟩] := by decide +kernel
    show Conf _ [c!"http"] _ (lex c!"z{w;}")
    rw [hl]
    exact exBlock (inner := [⟨c!"w", 1, false, none⟩, ⟨c!";", 1, false, none⟩]) (by decide) (exWord (by decide)) (by decide +kernel) rfl (by decide)
      (exSimple (args := []) (by decide) (exWord (by decide)) (by simp) (by decide +kernel) rfl (fun h => by cases h) .nil) .nil

/-- The premise about includes is needed: if the edit takes away an include, the file that it included is no longer in the payload, and the links of the others change. -/
example : Parse (exEnv [(c!"/e/n", c!"include a;include b;"), (c!"/e/a", c!"x y;"), (c!"/e/b", c!"z;")]) 5 c!"/e/n" exOpts =
      .ok (okPayload [(c!"/e/n", [incl 1 c!"a" [1], incl 1 c!"b" [2]]), (c!"/e/a", [dir c!"x" 1 [c!"y"]]), (c!"/e/b", [dir c!"z" 1 []])]) ∧
    Parse (exEnv [(c!"/e/n", c!"include b;"), (c!"/e/a", c!"x y;"), (c!"/e/b", c!"z;")]) 5 c!"/e/n" exOpts =
      .ok (okPayload [(c!"/e/n", [incl 1 c!"b" [1]]), (c!"/e/b", [dir c!"z" 1 []])]) :=
  ⟨by decide +kernel, by decide +kernel⟩

/-- An edit inside a block of a file: a directive with a line of its own is added before the include. -/
example : Parse (exEnv [(c!"/e/n", c!"http{\n" ++ (c!"" ++ c!"include a;}")), (c!"/e/a", c!"x y;")]) 3 c!"/e/n" exOpts =
      .ok (okPayload [(c!"/e/n", [blk c!"http" 1 [] [incl 2 c!"a" [1]]]), (c!"/e/a", [dir c!"x" 1 [c!"y"]])]) ∧
    Parse (exEnv [(c!"/e/n", c!"http{\n" ++ (c!"root /r;\n" ++ c!"include a;}")), (c!"/e/a", c!"x y;")]) 3 c!"/e/n" exOpts =
      .ok (okPayload [(c!"/e/n", [blk c!"http" 1 [] [dir c!"root" 2 [c!"/r"], incl 3 c!"a" [1]]]), (c!"/e/a", [dir c!"x" 1 [c!"y"]])]) :=
  ⟨by decide +kernel, by decide +kernel⟩

/-- The second file of `exTwo` is edited: all premises hold, and the new statement is acceptable where it stands. -/
example : let N := diskNames (exEnv exTwo) c!"/e" (exTexts exTwo) (exMatching exTwo)
    ∃ x, Conf (rulesOf exOpts N) [c!"http"] x (lex c!"x y;") ∧ ∀ y, Conf (rulesOf exOpts N) [c!"http"] y (lex c!"z{w;}") → (∀ c, refsList N c x = refsList N c y) →
      ∃ tree, Exchanged 0 (laterList 0 x) (laterList 0 y) [dir c!"x" 1 [c!"y"]] tree ∧
        Parse (exEnv exTwoNew) 3 c!"/e/n" exOpts =
          .ok (okPayload [(c!"/e/n", [blk c!"http" 1 [] [incl 1 c!"a" [1], incl 1 c!"a" [1]]]), (c!"/e/a", link N [c!"/e/n", c!"/e/a"] tree)]) := by
  intro N
  have e1 : lex c!"x y;" = [⟨c!"x", 1, false, none⟩, ⟨c!"y", 1, false, none⟩] ++ [⟨c!";", 1, false, none⟩] := by decide +kernel
  have e2 : lex c!"z{w;}" = [⟨c!"z", 1, false, none⟩, ⟨c!"{", 1, false, none⟩, ⟨c!"w", 1, false, none⟩, ⟨c!";", 1, false, none⟩] ++ [⟨c!"}", 1, false, none⟩] := by decide +kernel
  refine C97_edit (a := [⟨c!"/e/n", [], [blk c!"http" 1 [] [incl 1 c!"a" [1], incl 1 c!"a" [1]]]⟩]) (f := ⟨c!"/e/a", [c!"http"], [dir c!"x" 1 [c!"y"]]⟩) (b := [])
    (pre := []) (s := c!"x y;") (s' := c!"z{w;}") (post := []) exTwo_changed rfl rfl exTwo_project ?_ (by decide) rfl rfl rfl ?_ ⟨?_, by rw [e1]; decide, ?_⟩ ⟨?_, by rw [e2]; decide, ?_⟩
  · intro f hf
    rcases List.mem_cons.mp hf with rfl | hf
    · exact Or.inl (Nat.zero_le _)
    · obtain rfl := List.mem_singleton.mp hf
      exact Or.inl (Nat.le_refl _)
  · refine .inl ⟨.inl rfl, ?_⟩
    intro u t cs e _
    have e3 : (lex []).filter (·.error == none) = [] := by decide +kernel
    rw [e3] at e
    simp at e
  · exact .inr ⟨⟨[⟨c!"x", 1, false, none⟩, ⟨c!"y", 1, false, none⟩], ⟨c!";", 1, false, none⟩, by rw [e1]; rfl, .inl ⟨rfl, rfl⟩⟩, c!"x y", ';', rfl, by decide, by decide, by decide, by decide⟩
  · rw [e1]
    exact .simple (mid := [⟨c!"y", 1, false, none⟩]) (exWord (by decide)) (.word (exWord (by decide)) .nil) ⟨rfl, rfl⟩ .nil
  · exact .inr ⟨⟨[⟨c!"z", 1, false, none⟩, ⟨c!"{", 1, false, none⟩, ⟨c!"w", 1, false, none⟩, ⟨c!";", 1, false, none⟩], ⟨c!"}", 1, false, none⟩, by rw [e2]; rfl, .inr (.inr ⟨rfl, rfl⟩)⟩, c!"z{w;", '}', rfl, by decide, by decide, by decide, by decide⟩
  · rw [e2]
    exact .block (mid := []) (inner := [⟨c!"w", 1, false, none⟩, ⟨c!";", 1, false, none⟩]) (exWord (by decide)) .nil ⟨rfl, rfl⟩
      (.simple (mid := []) (exWord (by decide)) .nil ⟨rfl, rfl⟩ .nil) ⟨rfl, rfl⟩ .nil

end Verif
