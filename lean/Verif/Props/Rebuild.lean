import Verif.Proofs.Rebuild
/-!
# C41 and C42: Build, then Parse
-/
namespace Verif
open Spec

/-! ## The tokens of a file -/

theorem Toks.down {hd : Str → List Str → List Item} {ds : List Directive} {toks : List Tok} (h : Toks hd ds toks) (k : Int) : Toks hd ds (toks.map (Tok.down k)) := by
  have hv : ∀ {hs : List Tok} {vals : List (Str × Bool)}, Vals hs vals → Vals (hs.map (Tok.down k)) vals := by
    intro hs vals h
    unfold Vals at h ⊢
    rw [← h, List.map_map]; rfl
  induction h with
  | nil => exact .nil
  | comment hc _ ih => exact .comment hc ih
  | simple hc v hb _ ih => rw [List.map_append, List.map_cons]; exact .simple hc (hv v) hb ih
  | block hc v hb _ _ ih1 ih2 => rw [List.map_append, List.map_cons, List.map_append, List.map_cons]; exact .block hc (hv v) hb ih1 ih2

/-- A comment without line. -/
def commentDir (text : Str) : Directive := ⟨c!"#", 0, [], [], none, none, some text, false⟩

/-- The directives the header adds. -/
def headerDirs (o : BuildOptions) : List Directive :=
  if o.header then [commentDir c!" This config was built from JSON using NGINX crossplane.", commentDir c!" If you encounter any bugs please report them here:",
    commentDir c!" https://github.com/nginxinc/crossplane/issues"] else []

theorem headerDirs_comment {o : BuildOptions} {d : Directive} (h : d ∈ headerDirs o) :
    IsComment d ∧ d.args = [] ∧ d.block = none ∧ CommentText (d.comment.getD []) := by
  have hp : ∀ s : Str, '\\' ∉ s → '\r' ∉ s → '\n' ∉ s → CommentText s := by
    intro s h1 h2 h3
    obtain ⟨h4, h5⟩ := plain_units h1 h2
    refine ⟨_, h4, fun u hu => ⟨h5 u hu, ?_⟩⟩
    obtain ⟨c, hc, rfl⟩ := List.mem_map.mp hu
    rintro rfl
    exact h3 hc
  unfold headerDirs at h
  split at h
  · simp only [List.mem_cons, List.not_mem_nil, or_false] at h
    rcases h with rfl | rfl | rfl <;> exact ⟨⟨rfl, by simp [commentDir]⟩, rfl, rfl, hp _ (by decide) (by decide) (by decide)⟩
  · simp at h

theorem within_headerDirs {o : BuildOptions} {ds : List Directive} {d : Directive} (h : Within d (headerDirs o ++ ds)) : d ∈ headerDirs o ∨ Within d ds := by
  rcases within_append.mp h with h | h
  · cases h with
    | here h => exact Or.inl h
    | deep hm hb _ => rw [(headerDirs_comment hm).2.2.1] at hb; cases hb
  · exact Or.inr h

theorem fullText_toks {isPrint : Char → Bool} {o : BuildOptions} {cfg : Config} (h : Readable isPrint cfg.parsed) (ha : CommentsApart cfg.parsed)
    (hb : NoBuilder isPrint o cfg.parsed) : Toks (heads isPrint) (headerDirs o ++ cfg.parsed) (lex (fullText isPrint o cfg)) := by
  have hl := h.lexable
  have ht : Toks (heads isPrint) cfg.parsed (lex (bodyText isPrint o cfg.parsed)) := by
    rw [bodyText_eq hl hb]; exact linesText_toks _ _ hl.text hl.treeOk ha
  unfold fullText headerDirs
  cases hh : o.header with
  | false => simpa using ht
  | true =>
    rw [if_pos rfl, if_pos rfl, C43_header_partial _ _ _ hl hb]
    have hc : ∀ t : Str, IsComment (commentDir t) := fun t => ⟨rfl, by simp [commentDir]⟩
    exact Toks.comment (line := 1) (hc _) (Toks.comment (line := 2) (hc _) (Toks.comment (line := 3) (hc _) (ht.down 4)))

/-! ## One file -/

theorem isAcyclic_one {env : Env} (hperm : ∀ l, (env.mapOrder l).Perm l) {ps : PS} {f : Str} (h1 : ps.includeInDegree = [(f, 0)]) (h2 : ps.includeEdges = []) :
    isAcyclic env ps = false := by
  unfold isAcyclic
  have hk : env.mapOrder [f] = [f] := List.perm_singleton.mp (hperm [f])
  simp only [h1, h2, List.map_cons, List.map_nil, hk]
  simp [kahnLoop, kahnEdges]

/-- A file that is parsed without changing the state gives a payload of one config. -/
theorem Parse_one {env : Env} {fuel : Nat} {filename : Str} {o : ParseOptions} {data : FileData} {es : List Directive} {ps' : PS} {toks' : List Tok}
    (hperm : ∀ l, (env.mapOrder l).Perm l) (hf : 2 ≤ fuel) (hc : o.combineConfigs = false) (ho : env.openFile 0 filename = .ok data)
    (hr : RunOk env o (env.dir filename) filename { vals := [], arr := 0, cap := 0 } (fileToks o data) (startFile (initPS filename) []) es toks' ps')
    (hq : Quiet (startFile (initPS filename) []) ps') :
    Parse env fuel filename o = .ok (okPayload [(filename, es)]) := by
  obtain ⟨n, rfl⟩ := hq
  rcases Parse_eq env fuel filename o with ⟨cs, ps1, h1, h2⟩ | ⟨e, ps1, h1, h2⟩ | ⟨ps1, h1, h2⟩
  · rw [h2]
    cases h1 with
    | nil _ hi => cases hi
    | ok _ incl rest data' ds toks1 ps2 cs _ hi hop hrun hmore =>
      cases hi
      have hop : env.openFile 0 filename = .ok data' := hop
      rw [ho] at hop
      cases hop
      obtain ⟨rfl, -, rfl⟩ := hr.det hrun
      cases hmore with
      | nil _ hi =>
        rw [isAcyclic_one hperm rfl rfl, hc]
        rfl
      | ok _ incl rest data' ds toks1 ps2 cs _ hi => cases hi
      | bad _ incl rest data' e toks1 ps2 cs _ hi => cases hi
    | bad _ incl rest data' e toks1 ps2 cs _ hi hop hrun hs hmore =>
      cases hi
      have hop : env.openFile 0 filename = .ok data' := hop
      rw [ho] at hop
      cases hop
      exact (hr.not_fail hrun).elim
  · exfalso
    cases h1 with
    | openErr _ incl rest e hi hop =>
      cases hi
      have hop : env.openFile 0 filename = .error e := hop
      rw [ho] at hop; cases hop
    | stop _ incl rest data' e toks1 ps2 hi hop hrun hs =>
      cases hi
      have hop : env.openFile 0 filename = .ok data' := hop
      rw [ho] at hop; cases hop
      exact hr.not_fail hrun
    | panic _ incl rest data' toks1 ps2 hi hop hrun =>
      cases hi
      have hop : env.openFile 0 filename = .ok data' := hop
      rw [ho] at hop; cases hop
      exact hr.not_fail hrun
    | ok _ incl rest data' ds toks1 ps2 e _ hi hop hrun hmore =>
      cases hi
      have hop : env.openFile 0 filename = .ok data' := hop
      rw [ho] at hop; cases hop
      obtain ⟨rfl, -, rfl⟩ := hr.det hrun
      cases hmore with
      | openErr _ incl rest e hi => cases hi
      | stop _ incl rest data' e toks1 ps2 hi => cases hi
      | panic _ incl rest data' toks1 ps2 hi => cases hi
      | ok _ incl rest data' ds toks1 ps2 e _ hi => cases hi
      | bad _ incl rest data' e1 toks1 ps2 e _ hi => cases hi
    | bad _ incl rest data' e1 toks1 ps2 e _ hi hop hrun hs hmore =>
      cases hi
      have hop : env.openFile 0 filename = .ok data' := hop
      rw [ho] at hop; cases hop
      exact hr.not_fail hrun
  · exfalso
    cases h1 with
    | zero => omega
    | ok n _ incl rest data' ds toks1 ps2 _ hi hop hrun hmore =>
      cases hi
      have hop : env.openFile 0 filename = .ok data' := hop
      rw [ho] at hop; cases hop
      obtain ⟨rfl, -, rfl⟩ := hr.det hrun
      cases hmore with
      | zero => omega
      | ok n _ incl rest data' ds toks1 ps2 _ hi => cases hi
      | bad n _ incl rest data' e toks1 ps2 _ hi => cases hi
    | bad n _ incl rest data' e toks1 ps2 _ hi hop hrun =>
      cases hi
      have hop : env.openFile 0 filename = .ok data' := hop
      rw [ho] at hop; cases hop
      exact hr.not_fail hrun

/-! ## C41 -/

/-- C41: a tree whose strings are read back as they are (C40), without two comments next to each other on one line, and whose directives are accepted in
their places, is given back by `Parse` when it is built with any indentation, tabs and header, the header being three comments. -/
theorem C41_partial (isPrint : Char → Bool) (bo : BuildOptions) (cfg : Config) (env : Env) (fuel : Nat) (filename : Str) (o : ParseOptions) (data : FileData)
    (hindent : 0 ≤ bo.indent) (hbuild : buildText isPrint cfg bo = some data.runes)
    (hread : Readable isPrint cfg.parsed) (hapart : CommentsApart cfg.parsed) (hacc : Accepted needsQuote o [] cfg.parsed) (hbuilder : NoBuilder isPrint bo cfg.parsed)
    (hperm : ∀ l, (env.mapOrder l).Perm l) (hfuel : 2 ≤ fuel) (hopen : env.openFile 0 filename = .ok data)
    (hcombine : o.combineConfigs = false) (hcomments : o.parseComments = true) (hlexers : o.lexers = []) :
    ∃ es, Parse env fuel filename o = .ok (okPayload [(filename, es)]) ∧ Same (headerDirs bo ++ cfg.parsed) es := by
  have htext : data.runes = fullText isPrint bo cfg := by
    unfold buildText at hbuild
    rw [C45_body isPrint bo hindent] at hbuild
    simp only [bind, Option.bind, Option.some.injEq] at hbuild
    exact hbuild.symm
  have htoks : Toks (heads isPrint) (headerDirs bo ++ cfg.parsed) (fileToks o data) := by
    unfold fileToks
    rw [hlexers, htext]
    exact fullText_toks hread hapart hbuilder
  have hread' : Readable isPrint (headerDirs bo ++ cfg.parsed) := by
    intro d hd
    rcases within_headerDirs hd with h | h
    · exact Or.inl (headerDirs_comment h)
    · exact hread d h
  have hacc' : Accepted needsQuote o [] (headerDirs bo ++ cfg.parsed) := by
    intro d c hd hc
    refine hacc d c ?_ hc
    rcases at_append.mp hd with hd | hd
    · exfalso
      cases hd with
      | here h => exact hc (headerDirs_comment h).1
      | deep hm hb _ => rw [(headerDirs_comment hm).2.2.1] at hb; cases hb
    · exact hd
  obtain ⟨es, ps', h1, h2, h3⟩ := run_toks (env := env) (configDir := env.dir filename) (file := filename) hcomments htoks { vals := [], arr := 0, cap := 0 }
    (startFile (initPS filename) []) [] [] rfl hread' hacc' (Or.inl ⟨rfl, rfl⟩)
  rw [List.append_nil] at h1
  exact ⟨es, Parse_one hperm hfuel hcombine hopen h1 h3, h2⟩

theorem at_last {d : Directive} {ctx : List Str} {ds : List Directive} {c : List Str} (h : At d ctx ds c) :
    c = ctx ∨ ∃ d', Within d' ds ∧ d'.block ≠ none ∧ c.getLast? = some d'.directive := by
  induction h with
  | here _ => exact Or.inl rfl
  | @deep ctx ds d' b c hm hb _ ih =>
    right
    rcases ih with rfl | ⟨d2, h1, h2, h3⟩
    · refine ⟨d', .here hm, by rw [hb]; simp, ?_⟩
      unfold enter
      split
      · rename_i h; rw [h.2]; rfl
      · simp
    · exact ⟨d2, .deep hm hb h1, h2, h3⟩

/-- Directives that no source knows are accepted anywhere but in map-like blocks. -/
theorem accepted_unknown {q : Str → Bool} {o : ParseOptions} {ds : List Directive} (he : o.errorOnUnknownDirectives = false)
    (h : ∀ d, Within d ds → ¬ IsComment d → ¬ Known (sources o) d.directive ∧ d.directive ∉ o.ignoreDirectives ∧ (o.singleFile = true ∨ d.directive ≠ c!"include"))
    (hm : ∀ d, Within d ds → d.block ≠ none → d.directive ∉ mapBlocks) : Accepted q o [] ds := by
  intro d c hd hc
  have hw : Within d ds := at_within hd
  have hno : ∀ m, ¬ InMap c m := by
    rintro m ⟨h1, h2⟩
    rcases at_last hd with rfl | ⟨d', h3, h4, h5⟩
    · cases h1
    · rw [h5] at h1; cases h1; exact hm d' h3 h4 h2
  refine ⟨fun m h => absurd h (hno m), fun _ => ?_⟩
  obtain ⟨h1, h2, h3⟩ := h d hw hc
  refine ⟨h2, h3, ?_⟩
  obtain ⟨bit, hb⟩ := lookup_bit c
  rw [analyze_iff _ _ _ _ _ bit hb]
  exact ⟨fun h => (by rw [he] at h; cases h), fun b _ hk => absurd hk h1⟩

theorem loop_no_space {e : Bool} {ch p : Char} {s : Str} (hb : '\\' ∉ s) (hp : p ≠ '\\') (h : needsQuoteLoop e ch p s = false) : ∀ x ∈ s, isSpaceRune x = false := by
  induction s generalizing e ch p with
  | nil => simp
  | cons c s ih =>
    rw [needsQuoteLoop, if_neg (by simpa using hp)] at h
    simp only at h
    split at h
    · cases h
    · rename_i h1
      split at h
      · cases h
      · intro x hx
        rcases List.mem_cons.mp hx with rfl | hx
        · simp only [Bool.or_eq_true, not_or, Bool.not_eq_true] at h1; exact h1.1.1.1.1
        · exact ih (fun h => hb (List.mem_cons_of_mem _ h)) (fun h => hb (by simp [h])) h x hx

/-- A string without backslashes that is not quoted has no blanks. -/
theorem needsQuote_no_space {s : Str} (hb : '\\' ∉ s) (h : needsQuote s = false) : ∀ x ∈ s, isSpaceRune x = false := by
  obtain ⟨c, cs, rfl, hc, -, hl⟩ := needsQuote_false h
  intro x hx
  rcases List.mem_cons.mp hx with rfl | hx
  · exact hc.1
  · exact loop_no_space (fun h => hb (List.mem_cons_of_mem _ h)) (by decide) hl x hx

/-- Strings of printable characters without backslashes that do not start with a number sign. -/
def PlainString (isPrint : Char → Bool) (s : Str) : Prop := (∀ c ∈ s, isPrint c = true) ∧ '\\' ∉ s ∧ s.head? ≠ some '#'

/-- Trees of plain strings are read back. -/
theorem readable_plain {isPrint : Char → Bool} (hcr : isPrint '\r' = false) {ds : List Directive}
    (h : ∀ d, Within d ds → (IsComment d ∧ d.args = [] ∧ d.block = none ∧ ∀ c ∈ d.comment.getD [], c ≠ '\n' ∧ c ≠ '\r' ∧ c ≠ '\\') ∨
      (¬ IsComment d ∧ d.comment = none ∧ (∀ s ∈ d.directive :: d.args, PlainString isPrint s) ∧
        (d.directive = c!"if" → ∃ a as, d.args = a :: as ∧ needsQuote a = false))) : Readable isPrint ds := by
  intro d hd
  rcases h d hd with ⟨h1, h2, h3, h4⟩ | ⟨h1, h2, h3, h4⟩
  · refine Or.inl ⟨h1, h2, h3, ?_⟩
    obtain ⟨h5, h6⟩ := plain_units (s := d.comment.getD []) (fun h => (h4 _ h).2.2 rfl) (fun h => (h4 _ h).2.1 rfl)
    refine ⟨_, h5, fun u hu => ⟨h6 u hu, ?_⟩⟩
    obtain ⟨c, hc, rfl⟩ := List.mem_map.mp hu
    exact (h4 c hc).1
  · refine Or.inr ⟨h1, h2, ?_⟩
    refine ⟨fun s hs => plain_token isPrint (h3 s hs).1 hcr (h3 s hs).2.1 (h3 s hs).2.2, ?_, ?_, ?_⟩
    · intro hn e
      obtain ⟨a, as, h5, -⟩ := h4 hn
      rw [e] at h5; cases h5
    · intro hn a as e
      obtain ⟨a', as', h5, h6⟩ := h4 hn
      rw [e] at h5; cases h5; exact h6
    · intro hn as l e hq xs x ex
      exact needsQuote_no_space (h3 l (by simp [e])).2.1 hq x (by simp [ex])

/-- A tree with a comment, an `if` and a quoted argument. -/
def exTree2 : List Directive :=
  [blk c!"a" 1 [c!"x y"] [{ dir c!"#" 1 [] with comment := some c!"c" }, blk c!"if" 2 [c!"$b", c!"=", c!"c d"] [dir c!"e" 3 []]]]

theorem exTree2_within {d : Directive} (h : Within d exTree2) : d = blk c!"a" 1 [c!"x y"] [{ dir c!"#" 1 [] with comment := some c!"c" },
    blk c!"if" 2 [c!"$b", c!"=", c!"c d"] [dir c!"e" 3 []]] ∨ d = { dir c!"#" 1 [] with comment := some c!"c" } ∨
    d = blk c!"if" 2 [c!"$b", c!"=", c!"c d"] [dir c!"e" 3 []] ∨ d = dir c!"e" 3 [] := by
  unfold exTree2 at h
  cases h with
  | here h => simp at h; exact Or.inl h
  | deep hm hb h =>
    simp at hm; subst hm; cases hb
    cases h with
    | here h => simp at h; tauto
    | deep hm hb h =>
      simp at hm
      rcases hm with rfl | rfl
      · cases hb
      · cases hb
        cases h with
        | here h => simp at h; tauto
        | deep hm hb h => simp at hm; subst hm; cases hb

theorem exTree2_readable : Readable exPrint exTree2 := by
  refine readable_plain rfl ?_
  intro d hd
  rcases exTree2_within hd with rfl | rfl | rfl | rfl
  · right; exact ⟨by decide, rfl, by unfold PlainString; decide, by intro h; cases h⟩
  · left; exact ⟨by decide, rfl, rfl, by decide⟩
  · right; exact ⟨by decide, rfl, by unfold PlainString; decide, fun _ => ⟨_, _, rfl, by decide⟩⟩
  · right; exact ⟨by decide, rfl, by unfold PlainString; decide, by intro h; cases h⟩

/-- Options without directives. -/
def exFree : ParseOptions := { directiveSources := [fun _ => none], parseComments := true }

theorem exFree_unknown (n : Str) : ¬ Known (sources exFree) n := by
  rintro ⟨f, hf, h⟩
  simp [sources, exFree] at hf
  subst hf
  cases h

theorem exTree2_apart : CommentsApart exTree2 := by
  have key : ∀ l : List Directive, l.length ≤ 1 → ∀ a x y b, l = a ++ x :: y :: b → IsComment x → IsComment y → x.line ≠ y.line := by
    intro l hl a x y b e
    have := congrArg List.length e
    simp only [List.length_append, List.length_cons] at this
    omega
  rintro l (rfl | ⟨d, hd, hb⟩)
  · exact key _ (by decide)
  · rcases exTree2_within hd with rfl | rfl | rfl | rfl
    · cases hb
      rintro a x y b e hx hy
      cases a with
      | nil => cases e; exact absurd hy (by decide)
      | cons z a =>
        cases a with
        | nil => cases e
        | cons z' a => cases a <;> cases e
    · cases hb
    · cases hb; exact key _ (by decide)
    · cases hb

theorem exTree2_accepted : Accepted needsQuote exFree [] exTree2 := by
  refine accepted_unknown rfl ?_ ?_
  · intro d hd _
    refine ⟨exFree_unknown _, by simp [exFree], Or.inr ?_⟩
    rcases exTree2_within hd with rfl | rfl | rfl | rfl <;> decide
  · intro d hd _
    rcases exTree2_within hd with rfl | rfl | rfl | rfl <;> decide

/-- The text of this tree, built with tabs and header. -/
def exText2 : Str := fullText exPrint { tabs := true, header := true } { file := c!"f", status := c!"ok", parsed := exTree2 }

example : ∃ es, Parse (exEnv [(c!"f", exText2)]) 2 c!"f" exFree = .ok (okPayload [(c!"f", es)]) ∧ Same (headerDirs { tabs := true, header := true } ++ exTree2) es :=
  C41_partial exPrint { tabs := true, header := true } { file := c!"f", status := c!"ok", parsed := exTree2 } _ 2 _ exFree { runes := exText2 } (by decide)
    (by decide +kernel) exTree2_readable exTree2_apart exTree2_accepted (fun _ _ => rfl) (fun _ => List.Perm.refl _) (Nat.le_refl _) rfl rfl rfl rfl
example : Parse (exEnv [(c!"f", c!"a \"x y\" { #c\n\tif ($b = \"c d\") {\n\t\te;\n\t}\n}")]) 2 c!"f" exFree = .ok (okPayload [(c!"f", exTree2)]) := by decide +kernel

/-- C41 is false of an `if` whose first argument needs quotes, though its strings are plain. -/
theorem C41_false_if : ∃ ds text, (∀ d, Within d ds → d.comment = none ∧ ∀ s ∈ d.directive :: d.args, PlainString exPrint s) ∧
    buildText exPrint { file := c!"f", status := c!"ok", parsed := ds } {} = some text ∧
    ∀ es, Parse (exEnv [(c!"f", text)]) 2 c!"f" exFree = .ok (okPayload [(c!"f", es)]) → ¬ Same ds es := by
  refine ⟨[blk c!"if" 1 [c!"a b"] []], c!"if (\"a b\") {\n}", ?_, by decide +kernel, ?_⟩
  · intro d hd
    cases hd with
    | here h => simp at h; subst h; unfold PlainString; decide
    | deep h hb h2 =>
      simp at h; subst h; cases hb
      cases h2 with
      | here h => cases h
      | deep h => cases h
  · intro es h
    rw [show Parse (exEnv [(c!"f", c!"if (\"a b\") {\n}")]) 2 c!"f" exFree = .ok (okPayload [(c!"f", [blk c!"if" 1 [c!"\"a", c!"b\""] []])]) by decide +kernel] at h
    simp only [okPayload, List.map_cons, List.map_nil, Res.ok.injEq, Payload.mk.injEq, true_and, and_true, List.cons.injEq, Config.mk.injEq] at h
    subst h
    intro hs
    cases hs with
    | leaf _ h => cases h
    | node _ h => cases h

/-- C41 is false of two comments on one line. -/
theorem C41_false_comments : ∃ ds text, (∀ d ∈ ds, d.block = none ∧ ∀ s ∈ d.comment.getD [] :: d.args, PlainString exPrint s) ∧
    buildText exPrint { file := c!"f", status := c!"ok", parsed := ds } {} = some text ∧
    ∀ es, Parse (exEnv [(c!"f", text)]) 2 c!"f" exFree = .ok (okPayload [(c!"f", es)]) → ¬ Same ds es := by
  refine ⟨[dir c!"a" 1 [], { dir c!"#" 1 [] with comment := some c!"b" }, { dir c!"#" 1 [] with comment := some c!"c" }], c!"a; #b #c", ?_, by decide +kernel, ?_⟩
  · unfold PlainString; decide
  · intro es h
    rw [show Parse (exEnv [(c!"f", c!"a; #b #c")]) 2 c!"f" exFree =
      .ok (okPayload [(c!"f", [dir c!"a" 1 [], { dir c!"#" 1 [] with comment := some c!"b #c" }])]) by decide +kernel] at h
    simp only [okPayload, List.map_cons, List.map_nil, Res.ok.injEq, Payload.mk.injEq, true_and, and_true, List.cons.injEq, Config.mk.injEq] at h
    subst h
    intro hs
    cases hs with
    | leaf _ _ _ _ _ hs =>
      cases hs with
      | leaf _ _ h => cases h
      | node _ _ h => cases h
    | node _ _ _ h => cases h

end Verif
