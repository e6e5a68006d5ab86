import Verif.Proofs.InlineProject
import Verif.Proofs.InlineText
import Verif.Props.Concat
/-!
# C77: an include directive is the text of the files in its place
-/
namespace Verif
open Spec

theorem plainList_tagFile (f : Str) (ds : List Directive) : plainList (tagFile f ds) = plainList ds := by
  have key : ∀ d : Directive, plain (tagDir f d) = plain d := by
    intro d
    induction d using Directive.ind with
    | h dd dl da df di db dc dm ih =>
      cases db with
      | none => rfl
      | some ds =>
        have : ∀ l, (∀ d ∈ l, plain (tagDir f d) = plain d) → plainList (tagFile f l) = plainList l := by
          intro l hl
          induction l with
          | nil => rfl
          | cons d l ihl =>
            rw [tagFile, plainList, plainList, hl d (List.mem_cons_self ..), ihl fun x hx => hl x (List.mem_cons_of_mem _ hx)]
        simp only [tagDir, tagBlock, plain, plainOpt, this ds (ih ds rfl)]
  induction ds with
  | nil => rfl
  | cons d ds ih => rw [tagFile, plainList, plainList, key, ih]

theorem Spec.IncludeStmt.later {args : List Str} {toks : List Tok} (h : IncludeStmt args toks) (n : Int) : IncludeStmt args (toks.map (laterTok n)) := by
  obtain ⟨t, mid, semi, rfl, h1, h2, h3, h4⟩ := h
  exact ⟨laterTok n t, mid.map (laterTok n), laterTok n semi, by simp, h1, h2, h3.later n, h4⟩

/-- The tokens of texts one after the other. -/
theorem lex_texts {text : Str → Option Str} (l : List Str) (h : ∀ f ∈ l, ∃ d, text f = some d ∧ Boundary lex d ∧ (∀ t ∈ lex d, t.error = none) ∧ Shape (lex d)) :
    Between (texts text l) ∧ (∀ t ∈ lex (texts text l), t.error = none) ∧ Shape (lex (texts text l)) ∧
      (lex (texts text l)).map noLine = (l.flatMap fun f => ((text f).map lex).getD []).map noLine := by
  induction l with
  | nil =>
    have e : lex (texts text []) = [] := show lex [] = [] by decide
    rw [e]
    exact ⟨⟨{}, rfl, rfl, rfl⟩, by simp, .nil, rfl⟩
  | cons f l ih =>
    obtain ⟨h1, h2, h3, h4⟩ := ih fun x hx => h x (List.mem_cons_of_mem _ hx)
    obtain ⟨d, d1, d2, d3, d4⟩ := h f (List.mem_cons_self ..)
    have e : texts text (f :: l) = d ++ texts text l := by
      unfold texts
      rw [List.flatMap_cons, d1]; rfl
    obtain ⟨⟨n, e2⟩, hb⟩ := lex_both (d2.between d3) d3 h1 h2 h3
    rw [e]
    refine ⟨hb, ?_, by rw [e2]; exact d4.append (h3.later _), ?_⟩
    · intro t ht
      rw [e2] at ht
      rcases List.mem_append.mp ht with ht | ht
      · exact d3 t ht
      · obtain ⟨t', ht', rfl⟩ := List.mem_map.mp ht
        exact h2 t' ht'
    · rw [e2, List.flatMap_cons, List.map_append, List.map_append, d1, ← h4, List.map_map]
      rfl

/-- The texts of the files of a project. -/
def textsOf (text : Str → Option FileData) (fs : List SourceFile) (f : Str) : Option Str := if f ∈ fs.map (·.name) then (text f).map (·.runes) else none

/-- What is assumed of the files of a project to replace include directives by texts. -/
structure Inlinable (o : ParseOptions) (names : List Str → Option (List Str)) (text : Str → Option FileData) (fs : List SourceFile) : Prop where
  /-- the files are read by the lexer of nginx configurations -/
  lexers : o.lexers = []
  /-- include directives are not left out -/
  ignore : c!"include" ∉ o.ignoreDirectives
  /-- each file is included in one block context only -/
  context : ∀ f ∈ fs, ∀ ref ∈ f.refs names, ∃ g ∈ fs, g.name = ref.1 ∧ g.ctx = ref.2
  /-- include directives have no block, and none stands where there are only parameters -/
  includes : ∀ f ∈ fs, ∀ d, Within d f.tree → d.directive = c!"include" → d.block = none ∧ d.isMapBlockParameter = false
  /-- after each file a statement may begin: the last line, if it has a comment, has a line feed -/
  ends : ∀ f ∈ fs, ∀ d, text f.name = some d → Boundary lex d.runes
  /-- comments stand between statements, unless they are left out -/
  comments : o.parseComments = false ∨ ∀ f ∈ fs, ∀ d, text f.name = some d → CommentsBetween (lex d.runes)

/-- C77.  If the include directives in the first file of a project are replaced by the texts of the files they stand for, one after the other, until no include
directive stands for a file, then the text, parsed alone, has the tree that `Parse` gives for the project with CombineConfigs, but for the lines and file
names. -/
theorem C77_inline {env env' : Env} {o : ParseOptions} {text : Str → Option FileData} {matching : Str → Option (List Str)} (ho : Followed env o text matching)
    {filename filename' : Str} {fs : List SourceFile} {fuel fuel' : Nat} (hf : fs.length < fuel) (hf' : 2 ≤ fuel') (hfresh : ∀ f ∈ fs, Fresh f.ctx.length)
    (h : IsProject env o text matching filename fs) (hi : Inlinable o (diskNames env (env.dir filename) text matching) text fs)
    {main data : FileData} (hmain : text filename = some main)
    (hin : Relation.ReflTransGen (Inlined lex (diskNames env (env.dir filename) text matching) (textsOf text fs)) main.runes data.runes)
    (hleft : NoneLeft (diskNames env (env.dir filename) text matching) (lex data.runes))
    (hperm : ∀ l, (env'.mapOrder l).Perm l) (hopen : env'.openFile 0 filename' = .ok data) :
    ∃ out out', Parse env fuel filename { o with combineConfigs := true } = .ok (okPayload [(filename, out)]) ∧
      Parse env' fuel' filename' { o with singleFile := true } = .ok (okPayload [(filename', out')]) ∧ plainList out' = plainList out := by
  obtain ⟨f0, rest, out, e0, h0, hx, hp⟩ := C71_combined ho hf hfresh h
  set names := diskNames env (env.dir filename) text matching with hnames
  set r := rulesOf o names with hr
  have htoks : ∀ f ∈ fs, ∃ d, text f.name = some d ∧ (∀ t ∈ lex d.runes, t.error = none) ∧ Conf r f.ctx (unlink f.tree) (lex d.runes) := by
    intro f hf
    obtain ⟨ts, h1, h2, h3⟩ := h.conf f hf
    obtain ⟨d, hd, rfl⟩ := Option.map_eq_some_iff.mp h1
    rw [fileToks_lex hi.lexers] at h2 h3
    exact ⟨d, hd, h2, h3⟩
  have hfiles := h.files
  have hrep : Replaceable r (fun f => (textsOf text fs f).map lex) fs := by
    refine ⟨?_, ?_, h.linked, hi.context, hi.includes⟩
    · have h1 := congrArg (List.map (·.1)) hfiles
      rw [List.map_map] at h1
      have h2 := collect_nodup (k := [(filename, [])]) (fs.flatMap (·.refs names)) (by simp)
      have h3 : (fs.map (·.name)) = _ := h1
      rw [h3]
      exact h2
    · intro f hf
      obtain ⟨d, h1, h2, h3⟩ := htoks f hf
      refine ⟨lex d.runes, ?_, h3, ?_⟩
      · rw [textsOf, if_pos (List.mem_map.mpr ⟨f, hf, rfl⟩), h1]; rfl
      · rcases hi.comments with k | k
        · exact Or.inl k
        · exact Or.inr (k f hf d h1)
  have hctx0 : f0.ctx = [] := by
    obtain ⟨l, hl⟩ := collect_prefix [(filename, [])] (fs.flatMap (·.refs names))
    change _ = collect [(filename, [])] (fs.flatMap (·.refs names)) at hfiles
    rw [← hl, e0, List.map_cons, List.singleton_append, List.cons.injEq, Prod.mk.injEq] at hfiles
    exact hfiles.1.2
  have hmem0 : f0 ∈ fs := by rw [e0]; exact List.mem_cons_self ..
  obtain ⟨d0, hd0, herr0, hconf0⟩ := htoks f0 hmem0
  rw [h0, hmain] at hd0
  cases hd0
  have hfull0 : Full r (fun f => (textsOf text fs f).map lex) [] (tagFile [] out) (lex main.runes) := by
    obtain ⟨ts, k1, k2, k3⟩ := hrep.conf f0 hmem0
    rw [h0] at k1
    have : ts = lex main.runes := by
      rw [textsOf, if_pos (List.mem_map.mpr ⟨f0, hmem0, h0⟩), hmain] at k1
      exact (Option.some.inj k1).symm
    subst this
    have := Expands.full hrep hx (ts := lex main.runes) rfl (hrep.linked f0 hmem0) (hrep.context f0 hmem0) (hrep.plainIncl f0 hmem0) k2 k3 .nil
    simpa [hctx0] using this
  have hall : ∀ a, Relation.ReflTransGen (Inlined lex names (textsOf text fs)) main.runes a →
      (∀ t ∈ lex a, t.error = none) ∧ ∃ ds, Full r (fun f => (textsOf text fs f).map lex) [] ds (lex a) ∧ plainList ds = plainList out := by
    intro a ha
    induction ha with
    | refl => exact ⟨herr0, _, hfull0, plainList_tagFile _ _⟩
    | tail _ hstep ih =>
      obtain ⟨herr, ds, hfull, hds⟩ := ih
      cases hstep with
      | @stmt pre line post args files hpre hline hinc hlerr hnm hne htx =>
        have hfs : ∀ f ∈ files, ∃ d, textsOf text fs f = some d ∧ Boundary lex d ∧ (∀ t ∈ lex d, t.error = none) ∧ Shape (lex d) := by
          intro f hf
          obtain ⟨d, hd⟩ := Option.isSome_iff_exists.mp (htx f hf)
          have hd' := hd
          rw [textsOf] at hd
          split at hd
          · rename_i hm
            obtain ⟨g, hg, rfl⟩ := List.mem_map.mp hm
            obtain ⟨d', k1, k2, k3⟩ := htoks g hg
            rw [k1] at hd
            cases hd
            exact ⟨d'.runes, hd', hi.ends g hg d' k1, k2, k3.shape⟩
          · cases hd
        obtain ⟨b1, b2, b3, b4⟩ := lex_texts files hfs
        have hls : Shape (lex line) ∧ ∃ T m, lex line = T ++ [m] ∧ Mark m c!";" := by
          obtain ⟨t, mid, semi, e, k1, k2, k3, k4⟩ := hinc
          rw [e]
          exact ⟨.simple k1 k3 k4 .nil, t :: mid, semi, by simp, k4⟩
        obtain ⟨T1, T2, p, n, g1, g2, g3⟩ := lex_replace hpre (hline.between hlerr) hlerr hls.1 hls.2 b1 b2 b3 herr
        have hfull2 := hfull.replace (hinc.later p) hnm hne hi.ignore (by
          intro f hf
          obtain ⟨d, k1, -, -, k2⟩ := hfs f hf
          exact ⟨lex d, by simp only [k1, Option.map_some], k2⟩) g1 g2
        obtain ⟨ds', k1, k2⟩ := hfull2.lines (toks' := lex (pre ++ (texts (textsOf text fs) files ++ post))) (by
          rw [g3]
          simp only [List.map_append, List.map_map]
          have e1 : noLine ∘ laterTok p = noLine := by funext t; exact noLine_later p t
          have e2 : noLine ∘ laterTok n = noLine := by funext t; exact noLine_later n t
          rw [e1, e2, b4])
        refine ⟨?_, ds', k1, k2.trans hds⟩
        intro t ht
        rw [g3] at ht
        rw [g2] at herr
        rcases List.mem_append.mp ht with ht | ht
        · exact herr t (List.mem_append_left _ ht)
        · rcases List.mem_append.mp ht with ht | ht
          · obtain ⟨t', ht', rfl⟩ := List.mem_map.mp ht
            exact b2 t' ht'
          · obtain ⟨t', ht', rfl⟩ := List.mem_map.mp ht
            exact herr t' (List.mem_append_right _ (List.mem_append_right _ ht'))
  obtain ⟨herr, out', hfull, hout⟩ := hall _ hin
  refine ⟨out, out', hp, ?_, hout⟩
  have hconf := hfull.conf (N := fun _ => some []) (fun _ => rfl) hleft
  refine C70_complete (o := { o with singleFile := true }) (data := data) ⟨hperm, ho.combine, Or.inl rfl, hopen⟩ hf' ?_ ?_
  · rw [fileToks_lex (by exact hi.lexers)]; exact herr
  · rw [fileToks_lex (by exact hi.lexers)]
    exact hconf

/-! ### Examples, and where it is false -/

theorem exInlined {names : List Str → Option (List Str)} {text : Str → Option Str} {pre post f a : Str} {s : Str} {tp : List Tok} {m : Tok}
    (hp : (lex pre).filter (·.error == none) = tp ++ [m]) (hm : Mark m c!";" ∨ Mark m c!"{" ∨ Mark m c!"}")
    (he : ∃ s' c, pre = s' ++ [c] ∧ c ≠ '"' ∧ c ≠ '\'' ∧ c ≠ '\\' ∧ c ≠ '\r')
    (hs : lex (c!"include " ++ a ++ c!";") = [⟨c!"include", 1, false, none⟩, ⟨a, 1, false, none⟩, ⟨c!";", 1, false, none⟩]) (ha : WordTok ⟨a, 1, false, none⟩)
    (hn : names [a] = some [f]) (ht : text f = some s) :
    Inlined lex names text (pre ++ (c!"include " ++ a ++ c!";" ++ post)) (pre ++ (s ++ post)) := by
  have e : texts text [f] = s := by simp [texts, ht]
  have := Inlined.stmt (lex := lex) (names := names) (text := text) (pre := pre) (stmt := c!"include " ++ a ++ c!";") (post := post) (args := [a]) (files := [f])
    (Or.inr ⟨⟨tp, m, hp, hm⟩, he⟩)
    (Or.inr ⟨⟨[⟨c!"include", 1, false, none⟩, ⟨a, 1, false, none⟩], ⟨c!";", 1, false, none⟩, by rw [hs]; rfl, Or.inl ⟨rfl, rfl⟩⟩, _, ';', rfl, by decide⟩)
    ⟨_, [⟨a, 1, false, none⟩], _, hs, exWord (by decide), rfl, .word ha .nil, ⟨rfl, rfl⟩⟩ (by rw [hs]; simp) hn (by simp) (by simp [ht])
  rwa [e] at this

theorem exTwo_inlined : Relation.ReflTransGen (Inlined lex (diskNames (exEnv exTwo) c!"/e" (exTexts exTwo) (exMatching exTwo)) (textsOf (exTexts exTwo) exTwoFiles))
    c!"http{include a;include a;}" c!"http{x y;x y;}" := by
  have ha : WordTok ⟨c!"a", 1, false, none⟩ := exWord (by decide)
  have h1 := exInlined (names := diskNames (exEnv exTwo) c!"/e" (exTexts exTwo) (exMatching exTwo)) (text := textsOf (exTexts exTwo) exTwoFiles)
    (pre := c!"http{") (post := c!"include a;}") (f := c!"/e/a") (a := c!"a") (s := c!"x y;") (tp := [⟨c!"http", 1, false, none⟩]) (m := ⟨c!"{", 1, false, none⟩)
    (by decide +kernel) (Or.inr (Or.inl ⟨rfl, rfl⟩)) ⟨c!"http", '{', rfl, by decide⟩ (by decide +kernel) ha (by decide +kernel) (by decide +kernel)
  have h2 := exInlined (names := diskNames (exEnv exTwo) c!"/e" (exTexts exTwo) (exMatching exTwo)) (text := textsOf (exTexts exTwo) exTwoFiles)
    (pre := c!"http{x y;") (post := c!"}") (f := c!"/e/a") (a := c!"a") (s := c!"x y;")
    (tp := [⟨c!"http", 1, false, none⟩, ⟨c!"{", 1, false, none⟩, ⟨c!"x", 1, false, none⟩, ⟨c!"y", 1, false, none⟩]) (m := ⟨c!";", 1, false, none⟩)
    (by decide +kernel) (Or.inl ⟨rfl, rfl⟩) ⟨c!"http{x y", ';', rfl, by decide⟩ (by decide +kernel) ha (by decide +kernel) (by decide +kernel)
  exact .tail (.single h1) h2

theorem exTwo_inlinable : Inlinable exOpts (diskNames (exEnv exTwo) c!"/e" (exTexts exTwo) (exMatching exTwo)) (exTexts exTwo) exTwoFiles where
  lexers := rfl
  ignore := by simp [exOpts]
  context := by decide +kernel
  includes := by
    intro f hf d hd hdir
    rcases List.mem_cons.mp hf with rfl | hf
    · simp only [within_cons, blk, incl, Option.some.injEq, exists_eq_left', reduceCtorEq, false_and, exists_const, false_or] at hd
      rcases hd with rfl | (rfl | rfl | h) | h
      · simp at hdir
      · exact ⟨rfl, rfl⟩
      · exact ⟨rfl, rfl⟩
      · cases h with
        | here h => cases h
        | deep h => cases h
      · cases h with
        | here h => cases h
        | deep h => cases h
    · obtain rfl := List.mem_singleton.mp hf
      simp only [within_cons, dir, reduceCtorEq, false_and, exists_const, false_or] at hd
      rcases hd with rfl | h
      · simp at hdir
      · cases h with
        | here h => cases h
        | deep h => cases h
  ends := by
    intro f hf d hd
    rcases List.mem_cons.mp hf with rfl | hf
    · have : d = { runes := c!"http{include a;include a;}" } := (Option.some.inj hd).symm
      subst this
      exact Or.inr ⟨⟨(lex c!"http{include a;include a;}").dropLast, ⟨c!"}", 1, false, none⟩, by decide +kernel, Or.inr (Or.inr ⟨rfl, rfl⟩)⟩,
        c!"http{include a;include a;", '}', rfl, by decide⟩
    · obtain rfl := List.mem_singleton.mp hf
      have : d = { runes := c!"x y;" } := (Option.some.inj hd).symm
      subst this
      exact Or.inr ⟨⟨(lex c!"x y;").dropLast, ⟨c!";", 1, false, none⟩, by decide +kernel, Or.inl ⟨rfl, rfl⟩⟩, c!"x y", ';', rfl, by decide⟩
  comments := Or.inl rfl

/-- The theorem for two files, of which one is included twice in a block of the other. -/
example : ∃ out out', Parse (exEnv exTwo) 3 c!"/e/n" { exOpts with combineConfigs := true } = .ok (okPayload [(c!"/e/n", out)]) ∧
    Parse (exEnv [(c!"/t", c!"http{x y;x y;}")]) 2 c!"/t" { exOpts with singleFile := true } = .ok (okPayload [(c!"/t", out')]) ∧
    plainList out' = plainList out :=
  C77_inline exTwo_followed (by decide) (by decide) (by
    intro f hf
    rcases List.mem_cons.mp hf with rfl | hf
    · exact Or.inl (Nat.zero_le _)
    · obtain rfl := List.mem_singleton.mp hf
      exact Or.inl (Nat.le_refl _)) exTwo_project exTwo_inlinable (main := { runes := c!"http{include a;include a;}" }) (data := { runes := c!"http{x y;x y;}" })
    rfl exTwo_inlined (by
      intro a t mid args texts semi b e _ _ hv
      have hno : ∀ t ∈ lex c!"http{x y;x y;}", t.value ≠ c!"include" := by decide +kernel
      exact absurd hv (hno t (by
        show t ∈ lex c!"http{x y;x y;}"
        have e' : lex c!"http{x y;x y;}" = a ++ t :: (mid ++ semi :: b) := e
        rw [e']; simp))) (fun _ => List.Perm.refl _) rfl

/-- What the trees are. -/
example : Parse (exEnv [(c!"/t", c!"http{x y;x y;}")]) 2 c!"/t" { exOpts with singleFile := true } =
    .ok (okPayload [(c!"/t", [blk c!"http" 1 [] [dir c!"x" 1 [c!"y"], dir c!"x" 1 [c!"y"]]])]) := by decide +kernel

/-- **C77** fails of the code for include directives in blocks with parameters: these are not followed. -/
theorem C77_false_map : ∃ (files : List (Str × Str)) (main inlined : Str) (out out' : List Directive), files.lookup c!"/e/m" = some main ∧
    Relation.ReflTransGen (Inlined lex (diskNames (exEnv files) c!"/e" (exTexts files) (exMatching files)) (fun f => files.lookup f)) main inlined ∧
    Parse (exEnv files) 5 c!"/e/m" { exOpts with combineConfigs := true } = .ok (okPayload [(c!"/e/m", out)]) ∧
    Parse (exEnv [(c!"/t", inlined)]) 5 c!"/t" { exOpts with singleFile := true } = .ok (okPayload [(c!"/t", out')]) ∧
    (∀ t ∈ lex inlined, t.value ≠ c!"include") ∧ plainList out' ≠ plainList out :=
  ⟨[(c!"/e/m", c!"http{map a b{include /e/s;}}"), (c!"/e/s", c!"x y;\n")], c!"http{map a b{include /e/s;}}", c!"http{map a b{x y;\n}}",
    [⟨c!"http", 1, [], c!"/e/m", none, some [⟨c!"map", 1, [c!"a", c!"b"], c!"/e/m", none,
      some [⟨c!"include", 1, [c!"/e/s"], c!"/e/m", none, none, none, true⟩], none, false⟩], none, false⟩],
    [blk c!"http" 1 [] [blk c!"map" 1 [c!"a", c!"b"] [⟨c!"x", 1, [c!"y"], [], none, none, none, true⟩]]], rfl,
    .single (exInlined (pre := c!"http{map a b{") (post := c!"}}") (f := c!"/e/s") (a := c!"/e/s") (s := c!"x y;\n") (tp := (lex c!"http{map a b").filter (·.error == none))
      (m := ⟨c!"{", 1, false, none⟩) (by decide +kernel) (Or.inr (Or.inl ⟨rfl, rfl⟩)) ⟨c!"http{map a b", '{', rfl, by decide⟩ (by decide +kernel)
      (exWord (by decide)) (by decide +kernel) (by decide +kernel)),
    by decide +kernel, by decide +kernel, by decide +kernel, by decide +kernel⟩

/-- **C77** fails of the code for a file that is included in two block contexts: it is checked in the first one only, its text in both. -/
theorem C77_false_twice : ∃ (files : List (Str × Str)) (main inlined : Str) (out : List Directive) (bad : Payload), files.lookup c!"/e/m" = some main ∧
    Relation.ReflTransGen (Inlined lex (diskNames (exEnv files) c!"/e" (exTexts files) (exMatching files)) (fun f => files.lookup f)) main inlined ∧
    Parse (exEnv files) 5 c!"/e/m" { exOpts with combineConfigs := true } = .ok (okPayload [(c!"/e/m", out)]) ∧
    Parse (exEnv [(c!"/t", inlined)]) 5 c!"/t" { exOpts with singleFile := true } = .ok bad ∧
    (∀ t ∈ lex inlined, t.value ≠ c!"include") ∧ bad.status = c!"failed" :=
  ⟨[(c!"/e/m", c!"http{include /e/s;server{include /e/s;}}"), (c!"/e/s", c!"server{}\n")], c!"http{include /e/s;server{include /e/s;}}",
    c!"http{server{}\nserver{server{}\n}}",
    [⟨c!"http", 1, [], c!"/e/m", none, some [⟨c!"server", 1, [], c!"/e/s", none, some [], none, false⟩, ⟨c!"server", 1, [], c!"/e/m", none,
      some [⟨c!"server", 1, [], c!"/e/s", none, some [], none, false⟩], none, false⟩], none, false⟩],
    badPayload c!"/t" 2 (serr c!"\"server\" directive is not allowed here" c!"/t" 2 c!"server " c!"server")
      [blk c!"http" 1 [] [blk c!"server" 1 [] [], blk c!"server" 2 [] []]], rfl,
    .tail (.single (exInlined (pre := c!"http{") (post := c!"server{include /e/s;}}") (f := c!"/e/s") (a := c!"/e/s") (s := c!"server{}\n")
      (tp := [⟨c!"http", 1, false, none⟩]) (m := ⟨c!"{", 1, false, none⟩) (by decide +kernel) (Or.inr (Or.inl ⟨rfl, rfl⟩)) ⟨c!"http", '{', rfl, by decide⟩
      (by decide +kernel) (exWord (by decide)) (by decide +kernel) (by decide +kernel)))
      (exInlined (pre := c!"http{server{}\nserver{") (post := c!"}}") (f := c!"/e/s") (a := c!"/e/s") (s := c!"server{}\n")
      (tp := (lex c!"http{server{}\nserver").filter (·.error == none)) (m := ⟨c!"{", 2, false, none⟩) (by decide +kernel) (Or.inr (Or.inl ⟨rfl, rfl⟩))
      ⟨c!"http{server{}\nserver", '{', rfl, by decide⟩ (by decide +kernel) (exWord (by decide)) (by decide +kernel) (by decide +kernel)),
    by decide +kernel, by decide +kernel, by decide +kernel, by decide +kernel⟩

end Verif
