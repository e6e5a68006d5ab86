import Verif.Props.Grammar
import Verif.Props.Project
import Verif.Props.ProjectCombined
import Verif.Spec.Without
/-!
# C73: IgnoreDirectives leaves out exactly the directives of these names

The tree that is parsed with `IgnoreDirectives` is the tree that is parsed without it, without the directives of these names (`withoutList`, Spec/Without).
-/
namespace Verif
open Spec

/-- The rules with more directives to leave out. -/
def Spec.Rules.ignoring (r : Rules) (L : List Str) : Rules := { r with ignore := r.ignore ++ L }

/-- The options with more directives to leave out. -/
def ignoring (o : ParseOptions) (L : List Str) : ParseOptions := { o with ignoreDirectives := o.ignoreDirectives ++ L }

theorem rulesOf_ignoring (o : ParseOptions) (L : List Str) (N : List Str → Option (List Str)) : rulesOf (ignoring o L) N = (rulesOf o N).ignoring L := rfl

theorem fileToks_ignoring (o : ParseOptions) (L : List Str) (d : FileData) : fileToks (ignoring o L) d = fileToks o d := rfl

theorem withoutList_keep {L : List Str} {d : Directive} (h : d.directive ∉ L ∨ d.isMapBlockParameter = true ∨ d.comment ≠ none) (ds : List Directive) :
    withoutList L (d :: ds) = without L d :: withoutList L ds := by
  rw [withoutList, if_neg]
  rintro ⟨h1, h2, h3⟩
  rcases h with h | h | h
  · exact h h1
  · rw [h2] at h; cases h
  · exact h h3

theorem withoutList_drop {L : List Str} {d : Directive} (h : d.directive ∈ L) (hp : d.isMapBlockParameter = false) (hc : d.comment = none) (ds : List Directive) :
    withoutList L (d :: ds) = withoutList L ds := by
  rw [withoutList, if_pos ⟨h, hp, hc⟩]

theorem CommentsBetween.mono {a b c : List Tok} (h : CommentsBetween (a ++ (b ++ c))) : CommentsBetween b := by
  intro x t u y text he hc
  exact h (a ++ x) t u (y ++ c) text (by rw [he]; simp) hc

/-- Between statements there is no comment among the words of a statement. -/
theorem CommentsBetween.words {mid : List Tok} {args texts : List Str} (hm : Words mid args texts) :
    ∀ {pre rest : List Tok} {t : Tok}, WordTok t → CommentsBetween (pre ++ t :: (mid ++ rest)) → texts = [] := by
  induction hm with
  | nil => intros; rfl
  | @word u mid args texts hw _ ih =>
    intro pre rest t ht h
    exact ih (pre := pre ++ [t]) (rest := rest) hw (by simpa using h)
  | @comment u text mid args texts hc _ ih =>
    intro pre rest t ht h
    rcases h pre t u (mid ++ rest) text (by simp) hc with k | k | k | ⟨s, k⟩
    · exact absurd k ht.2.2.2
    · exact absurd k ht.2.1
    · exact absurd k ht.2.2.1
    · exact absurd k (ht.1 s)

/-- In the grammar: what is a configuration is one with more directives to leave out, and stands for the tree without them. -/
theorem C73_grammar {r : Rules} (L : List Str) {ctx : List Str} {ds : List Directive} {toks : List Tok} (h : Conf r ctx ds toks)
    (hc : r.comments = false ∨ CommentsBetween toks) :
    Conf (r.ignoring L) ctx (withoutList L ds) toks := by
  have hm : ∀ {x : Str}, x ∉ r.ignore → x ∉ L → x ∉ (r.ignoring L).ignore := fun h1 h2 h => by
    rcases List.mem_append.mp h with h | h
    · exact h1 h
    · exact h2 h
  have hmono : ∀ {a b c : List Tok}, (r.comments = false ∨ CommentsBetween (a ++ (b ++ c))) → r.comments = false ∨ CommentsBetween b :=
    fun h => h.imp_right CommentsBetween.mono
  have htexts : ∀ {t : Tok} {mid rest : List Tok} {args texts : List Str}, WordTok t → Words mid args texts →
      (r.comments = false ∨ CommentsBetween (t :: (mid ++ rest))) → (if r.comments then commentsAt t.line texts else []) = [] := by
    rintro t mid rest args texts ht hw (h | h)
    · simp [h]
    · rw [CommentsBetween.words hw (pre := []) ht h]
      simp [commentsAt]
  induction h with
  | nil => exact .nil
  | @comment ctx t text ds toks h1 h2 _ ih =>
    rw [withoutList_keep (Or.inr (Or.inr (by simp)))]
    exact .comment (r := r.ignoring L) h1 h2 (ih (hmono (a := [t]) (c := []) (by simpa using hc)))
  | @skip ctx t text ds toks h1 h2 _ ih => exact .skip h1 h2 (ih (hmono (a := [t]) (c := []) (by simpa using hc)))
  | @param ctx m t mid args texts semi ds toks h1 h2 h3 h4 h5 _ ih =>
    rw [withoutList_keep (Or.inr (Or.inl rfl))]
    exact .param h1 h2 h3 h4 h5 (ih (hmono (a := t :: mid ++ [semi]) (c := []) (by simpa using hc)))
  | @ignored ctx t mid args texts semi ds toks h1 h2 h3 h4 h5 _ ih =>
    exact .ignored h1 (List.mem_append_left _ h2) h3 h4 h5 (ih (hmono (a := t :: mid ++ [semi]) (c := []) (by simpa using hc)))
  | @ignoredBlock ctx t mid args texts opening inner closing ds toks h1 h2 h3 h4 h5 h6 h7 _ ih =>
    exact .ignoredBlock h1 (List.mem_append_left _ h2) h3 h4 h5 h6 h7
      (ih (hmono (a := t :: mid ++ opening :: inner ++ [closing]) (c := []) (by simpa using hc)))
  | @simple ctx t mid args args' texts semi ds toks h1 h2 h3 h4 h5 h6 h7 h8 _ ih =>
    have hc' := htexts h3 h4 hc
    replace ih := ih (hmono (a := t :: mid ++ [semi]) (c := []) (by simpa using hc))
    rw [hc', List.nil_append]
    by_cases hL : t.value ∈ L
    · rw [withoutList_drop hL rfl rfl]
      exact .ignored h1 (List.mem_append_right _ hL) h3 h4 h5 ih
    · rw [withoutList_keep (Or.inl hL)]
      have := Conf.simple (r := r.ignoring L) h1 (hm h2 hL) h3 h4 h5 h6 h7 h8 ih
      rw [show (r.ignoring L).comments = r.comments from rfl, hc', List.nil_append] at this
      simpa only [without, withoutOpt] using this
  | @block ctx t mid args args' texts opening b inner closing ds toks h1 h2 h3 h4 h5 h6 h7 h8 hb h9 _ ihb ih =>
    have hc' := htexts h3 h4 hc
    replace ih := ih (hmono (a := t :: mid ++ opening :: inner ++ [closing]) (c := []) (by simpa using hc))
    replace ihb := ihb (hmono (a := t :: mid ++ [opening]) (c := closing :: toks) (by simpa using hc))
    rw [hc', List.nil_append]
    by_cases hL : t.value ∈ L
    · rw [withoutList_drop hL rfl rfl]
      exact .ignoredBlock h1 (List.mem_append_right _ hL) h3 h4 h5 hb.shape h9 ih
    · rw [withoutList_keep (Or.inl hL)]
      have := Conf.block (r := r.ignoring L) h1 (hm h2 hL) h3 h4 h5 h6 h7 h8 ihb h9 ih
      rw [show (r.ignoring L).comments = r.comments from rfl, hc', List.nil_append] at this
      simpa only [without, withoutOpt] using this

/-- C73, for one file.  If a file is parsed without an error, it is also with more directives to leave out, and the tree is the one without these; comments are
not kept or stand between statements, and the tokens of the file are statements. -/
theorem C73_one {env : Env} {fuel : Nat} {filename : Str} {o : ParseOptions} {data : FileData} (ho : OneFile env filename o data) (hf : 2 ≤ fuel)
    (hc : o.parseComments = false ∨ CommentsBetween (fileToks o data)) (hform : Formed o data) (L : List Str) {ds : List Directive}
    (h : Parse env fuel filename o = .ok (okPayload [(filename, ds)])) :
    Parse env fuel filename (ignoring o L) = .ok (okPayload [(filename, withoutList L ds)]) := by
  obtain ⟨he, hconf⟩ := C70_sound_tree ho hf hform h
  have ho' : OneFile env filename (ignoring o L) data := ⟨ho.perm, ho.combine, ho.alone, ho.opens⟩
  exact C70_complete ho' hf he (C73_grammar (r := rulesOf o) L hconf hc)

/-! ### Several files -/

theorem setLinks_directive (g : Str → List Str → Bool → Option (List Int)) (d : Directive) :
    (setLinks g d).directive = d.directive ∧ (setLinks g d).isMapBlockParameter = d.isMapBlockParameter ∧
      (setLinks g d).comment = d.comment := by
  cases d; exact ⟨rfl, rfl, rfl⟩

mutual
theorem setLinks_without (g : Str → List Str → Bool → Option (List Int)) (L : List Str) : ∀ d : Directive, setLinks g (without L d) = without L (setLinks g d)
  | ⟨dd, dl, dargs, df, di, dblock, dc, dm⟩ => by
    simp only [without, setLinks, setLinksOpt_without g L dblock]
theorem setLinksOpt_without (g : Str → List Str → Bool → Option (List Int)) (L : List Str) :
    ∀ b : Option (List Directive), setLinksOpt g (withoutOpt L b) = withoutOpt L (setLinksOpt g b)
  | none => rfl
  | some ds => by simp only [withoutOpt, setLinksOpt, setLinksList_without g L ds]
theorem setLinksList_without (g : Str → List Str → Bool → Option (List Int)) (L : List Str) :
    ∀ ds : List Directive, setLinksList g (withoutList L ds) = withoutList L (setLinksList g ds)
  | [] => rfl
  | d :: ds => by
    rw [withoutList, setLinksList, withoutList, (setLinks_directive g d).1, (setLinks_directive g d).2.1,
      (setLinks_directive g d).2.2]
    split
    · exact setLinksList_without g L ds
    · rw [setLinksList, setLinks_without g L d, setLinksList_without g L ds]
end

/-- The file without the directives of the names `L`. -/
def Spec.SourceFile.without (L : List Str) (f : SourceFile) : SourceFile := { f with tree := withoutList L f.tree }

/-- A project without the directives of some names, none of which includes a file or has an include in its block, is one for the rules that leave these out. -/
theorem C73_project {toks : Str → Option (List Tok)} {r : Rules} (L : List Str) {start : Str} {fs : List SourceFile}
    (hc : r.comments = false ∨ ∀ f ∈ fs, ∀ ts, toks f.name = some ts → CommentsBetween ts)
    (hrefs : ∀ f ∈ fs, (f.without L).refs r.names = f.refs r.names) (h : Project toks r start fs) :
    Project toks (r.ignoring L) start (fs.map (·.without L)) where
  files := by
    rw [List.map_map, List.flatMap_map, show (r.ignoring L).names = r.names from rfl, List.flatMap_congr hrefs]
    exact h.files
  earlier := by
    intro pre f post he hne
    obtain ⟨pre', f', rfl, rfl, he2⟩ := List.map_eq_append_iff.mp he
    obtain ⟨f'', post', rfl, rfl, rfl⟩ := List.map_eq_cons_iff.mp he2
    obtain ⟨g, hg, hgm⟩ := h.earlier pre' f'' post' rfl (by rintro rfl; exact hne rfl)
    refine ⟨g.without L, List.mem_map.mpr ⟨g, hg, rfl⟩, ?_⟩
    have := hrefs g (List.mem_append_left _ hg)
    rw [show (r.ignoring L).names = r.names from rfl, this]
    exact hgm
  conf := by
    intro f hf
    obtain ⟨f, hf', rfl⟩ := List.mem_map.mp hf
    clear hf; rename' hf' => hf
    obtain ⟨ts, h1, h2, h3⟩ := h.conf f hf
    refine ⟨ts, h1, h2, ?_⟩
    have := C73_grammar L h3 (hc.imp_right fun k => k f hf ts h1)
    rw [unlink, ← setLinksList_without] at this
    exact this
  linked := by
    intro f hf
    obtain ⟨f, hf', rfl⟩ := List.mem_map.mp hf
    clear hf; rename' hf' => hf
    have := h.linked f hf
    rw [List.map_map]
    show link r.names (fs.map (·.name)) (withoutList L f.tree) = withoutList L f.tree
    rw [link] at this ⊢
    rw [setLinksList_without, this]
  acyclic := by
    intro a ha
    refine h.acyclic a (Relation.TransGen.mono (fun u v huv => ?_) _ _ ha)
    obtain ⟨f, hf, h1, h2⟩ := huv
    obtain ⟨f, hf', rfl⟩ := List.mem_map.mp hf
    clear hf; rename' hf' => hf
    rw [show (r.ignoring L).names = r.names from rfl, hrefs f hf] at h2
    exact ⟨f, hf, h1, h2⟩

/-- C73, for several files.  If the directives to leave out include no file and have no include in their blocks, `Parse` gives the same files, with the trees
without these directives. -/
theorem C73_ignores {env : Env} {o : ParseOptions} {text : Str → Option FileData} {matching : Str → Option (List Str)} (ho : Followed env o text matching)
    {filename : Str} {fs : List SourceFile} {fuel : Nat} (hf : fs.length < fuel) (hfresh : ∀ f ∈ fs, Fresh f.ctx.length) (hc : o.parseComments = false ∨ ∀ f ∈ fs, ∀ d, text f.name = some d → CommentsBetween (fileToks o d))
    (L : List Str) (h1 : Parse env fuel filename o = .ok (okPayload (fs.map fun f => (f.name, f.tree))))
    (h2 : fs = sourceFiles env text matching filename (fs.map fun f => (f.name, f.tree)))
    (h3 : ∀ f ∈ fs, ∀ d, text f.name = some d → Formed o d)
    (hrefs : ∀ f ∈ fs, (f.without L).refs (diskNames env (env.dir filename) text matching) = f.refs (diskNames env (env.dir filename) text matching)) :
    Parse env fuel filename (ignoring o L) = .ok (okPayload (fs.map fun f => (f.name, withoutList L f.tree))) := by
  have hp := C71_sound_trees ho hfresh h1 h2 h3
  have ho' : Followed env (ignoring o L) text matching := ⟨ho.perm, ho.disk, ho.combine, ho.follow⟩
  have := C71_complete (fuel := fuel) ho' (by simpa using hf) (by
    intro f hf
    obtain ⟨f, hf', rfl⟩ := List.mem_map.mp hf
    clear hf; rename' hf' => hf
    exact hfresh f hf) (C73_project (r := rulesOf o _) L (hc.imp_right fun k f hf ts hts => by
      obtain ⟨d, hd, rfl⟩ := Option.map_eq_some_iff.mp hts
      exact k f hf d hd) hrefs hp)
  rw [this, List.map_map]
  rfl

/-! ### Examples, and where it is false -/

/-- The tree without `gzip` and `x`. -/
example : withoutList [c!"gzip", c!"x"] [blk c!"http" 1 [] [blk c!"server" 1 [] [dir c!"gzip" 1 [c!"on"], blk c!"x" 1 [] [dir c!"a" 1 []]]]] =
    [blk c!"http" 1 [] [blk c!"server" 1 [] []]] := by decide +kernel

/-- A parameter of a map block is kept. -/
example : withoutList [c!"gzip"] [blk c!"types" 1 [] [param c!"gzip" 1 [c!"on"]]] = [blk c!"types" 1 [] [param c!"gzip" 1 [c!"on"]]] := by decide +kernel

/-- The text is parsed to this tree, and with `gzip` and `x` ignored to the one without these. -/
example : Parse (exEnv [(c!"/e/n", c!"http{server{gzip on;x{a;}}}")]) 2 c!"/e/n" (ignoring exOpts [c!"gzip", c!"x"]) =
    .ok (okPayload [(c!"/e/n", withoutList [c!"gzip", c!"x"]
      [blk c!"http" 1 [] [blk c!"server" 1 [] [dir c!"gzip" 1 [c!"on"], blk c!"x" 1 [] [dir c!"a" 1 []]]]])]) :=
  C73_one (data := { runes := c!"http{server{gzip on;x{a;}}}" }) ⟨fun l => List.Perm.refl l, rfl, Or.inr (by decide +kernel), rfl⟩ (by decide) (Or.inl rfl)
    (Or.inl ⟨by decide +kernel, by
      have hl : fileToks exOpts { runes := c!"http{server{gzip on;x{a;}}}" } =
          [c!"http", c!"{", c!"server", c!"{", c!"gzip", c!"on", c!";", c!"x", c!"{", c!"a", c!";", c!"}", c!"}", c!"}"].map fun v => ⟨v, 1, false, none⟩ := by
        decide +kernel
      have w : ∀ v : Str, (⟨v, 1, false, none⟩ : Tok).isTerm = false ∧ (⟨v, 1, false, none⟩ : Tok).isCommentTok = false → WordTok ⟨v, 1, false, none⟩ :=
        fun v h => exWord h
      have m : ∀ v : Str, Mark ⟨v, 1, false, none⟩ v := fun v => ⟨rfl, rfl⟩
      rw [hl]
      exact .block (mid := []) (inner := [⟨c!"server", 1, false, none⟩, ⟨c!"{", 1, false, none⟩, ⟨c!"gzip", 1, false, none⟩, ⟨c!"on", 1, false, none⟩,
          ⟨c!";", 1, false, none⟩, ⟨c!"x", 1, false, none⟩, ⟨c!"{", 1, false, none⟩, ⟨c!"a", 1, false, none⟩, ⟨c!";", 1, false, none⟩, ⟨c!"}", 1, false, none⟩, ⟨c!"}", 1, false, none⟩])
        (toks := []) (w c!"http" (by decide)) .nil (m c!"{")
        (.block (mid := []) (inner := [⟨c!"gzip", 1, false, none⟩, ⟨c!"on", 1, false, none⟩, ⟨c!";", 1, false, none⟩,
            ⟨c!"x", 1, false, none⟩, ⟨c!"{", 1, false, none⟩, ⟨c!"a", 1, false, none⟩, ⟨c!";", 1, false, none⟩, ⟨c!"}", 1, false, none⟩])
          (toks := []) (w c!"server" (by decide)) .nil (m c!"{")
          (.simple (mid := [⟨c!"on", 1, false, none⟩]) (w c!"gzip" (by decide)) (.word (w c!"on" (by decide)) .nil) (m c!";")
            (.block (mid := []) (inner := [⟨c!"a", 1, false, none⟩, ⟨c!";", 1, false, none⟩]) (toks := []) (w c!"x" (by decide)) .nil (m c!"{")
              (.simple (mid := []) (w c!"a" (by decide)) .nil (m c!";") .nil) (m c!"}") .nil)) (m c!"}") .nil) (m c!"}") .nil⟩) _ (by decide +kernel)

/-- Two files; `x` is left out of the second. -/
example : Parse (exEnv exTwo) 3 c!"/e/n" (ignoring exOpts [c!"x"]) =
    .ok (okPayload [(c!"/e/n", [blk c!"http" 1 [] [incl 1 c!"a" [1], incl 1 c!"a" [1]]]), (c!"/e/a", [])]) := by
  have ho : Followed (exEnv exTwo) (ignoring exOpts [c!"x"]) (exTexts exTwo) (exMatching exTwo) :=
    ⟨exTwo_followed.perm, exTwo_followed.disk, rfl, rfl⟩
  have hp : IsProject (exEnv exTwo) (ignoring exOpts [c!"x"]) (exTexts exTwo) (exMatching exTwo) c!"/e/n" (exTwoFiles.map (·.without [c!"x"])) :=
    C73_project (r := rulesOf exOpts _) [c!"x"] (Or.inl rfl) (by decide +kernel) exTwo_project
  exact C71_complete (fuel := 3) ho (by decide) (by
    intro f hf
    rcases List.mem_cons.mp hf with rfl | hf
    · exact Or.inl (Nat.zero_le _)
    · obtain rfl := List.mem_singleton.mp hf
      exact Or.inl (Nat.le_refl _)) hp

/-- C73 does not hold for comments within statements: a comment in a directive that is left out is lost, too. -/
theorem C73_false_comments : ∃ (env : Env) (o : ParseOptions) (data : FileData) (L : List Str) (ds : List Directive), OneFile env c!"/e/n" o data ∧
    Parse env 2 c!"/e/n" o = .ok (okPayload [(c!"/e/n", ds)]) ∧
    Parse env 2 c!"/e/n" (ignoring o L) ≠ .ok (okPayload [(c!"/e/n", withoutList L ds)]) :=
  ⟨exEnv [(c!"/e/n", c!"a #c\n;")], { exOpts with parseComments := true }, { runes := c!"a #c\n;" }, [c!"a"],
    [dir c!"a" 1 [], ⟨c!"#", 1, [], [], none, none, some c!"c", false⟩],
    ⟨fun l => List.Perm.refl l, rfl, Or.inr (by decide +kernel), rfl⟩, by decide +kernel, by decide +kernel⟩

/-- There is no converse: a file may be accepted only because a directive is left out. -/
theorem C73_false_converse : ∃ (env : Env) (o : ParseOptions) (data : FileData) (L : List Str) (p : Payload), OneFile env c!"/e/n" o data ∧
    Parse env 2 c!"/e/n" (ignoring o L) = .ok (okPayload [(c!"/e/n", [])]) ∧ Parse env 2 c!"/e/n" o = .ok p ∧ p.status = c!"failed" :=
  ⟨exEnv [(c!"/e/n", c!"server;")], exOpts, { runes := c!"server;" }, [c!"server"],
    badPayload c!"/e/n" 1 (serr c!"\"server\" directive is not allowed here" c!"/e/n" 1 c!"server " c!"main") [],
    ⟨fun l => List.Perm.refl l, rfl, Or.inr (by decide +kernel), rfl⟩, by decide +kernel, by decide +kernel, rfl⟩

end Verif
