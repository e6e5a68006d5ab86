import Verif.Proofs.InlineExt
import Verif.Props.Inline
import Verif.Props.ConcatExt
/-!
# C77 with external lexers
-/
namespace Verif
open Spec

/-- The tokens of texts one after the other. -/
theorem lex_textsE {ext : ExtLexers} (hsh : Shifts ext) (hx : ∀ s, ext ('#' :: s) = none) {text : Str → Option Str} (l : List Str) (h : ∀ f ∈ l, ∃ d, text f = some d ∧ Boundary (lexWith ext) d ∧ (∀ call ∈ extCalls ext 0 {} d, EndsBefore call) ∧ (∀ t ∈ lexWith ext d, t.error = none) ∧ Shape (lexWith ext d)) :
    BetweenE ext false (texts text l) ∧ (∀ t ∈ lexWith ext (texts text l), t.error = none) ∧ Shape (lexWith ext (texts text l)) ∧
      (lexWith ext (texts text l)).map noLine = (l.flatMap fun f => ((text f).map (lexWith ext)).getD []).map noLine := by
  induction l with
  | nil =>
    have e : lexWith ext (texts text []) = [] := rfl
    refine ⟨⟨{}, by rw [e]; exact .nil _, rfl, rfl, rfl, rfl⟩, by rw [e]; simp, by rw [e]; exact .nil, by rw [e]; rfl⟩
  | cons f l ih =>
    obtain ⟨h1, h2, h3, h4⟩ := ih fun x hx => h x (List.mem_cons_of_mem _ hx)
    obtain ⟨d, d1, d2, dc, d3, d4⟩ := h f (List.mem_cons_self ..)
    have e : texts text (f :: l) = d ++ texts text l := by
      unfold texts
      rw [List.flatMap_cons, d1]; rfl
    obtain ⟨⟨n, e2⟩, hb⟩ := lex_bothE hsh hx (d2.betweenE d3 dc) h1 h2 h3
    rw [e]
    refine ⟨hb, ?_, by rw [e2]; exact d4.append (h3.later _), ?_⟩
    · intro t ht
      rw [e2] at ht
      rcases List.mem_append.mp ht with ht | ht
      · exact d3 t ht
      · obtain ⟨t', ht', rfl⟩ := List.mem_map.mp ht
        exact h2 t' ht'
    · rw [e2, List.flatMap_cons, List.map_append, List.map_append, d1, ← h4, List.map_map]
      rfl

/-- What is assumed of the files of a project to replace include directives by texts, with external lexers. -/
structure InlinableE (o : ParseOptions) (names : List Str → Option (List Str)) (text : Str → Option FileData) (fs : List SourceFile) : Prop where
  /-- the external lexers use the line only for the lines of their tokens -/
  shifts : Shifts (extLexersOf o.lexers)
  /-- there is none for comments -/
  hash : ∀ s, extLexersOf o.lexers ('#' :: s) = none
  /-- include directives are not left out -/
  ignore : c!"include" ∉ o.ignoreDirectives
  /-- each file is included in one block context only -/
  context : ∀ f ∈ fs, ∀ ref ∈ f.refs names, ∃ g ∈ fs, g.name = ref.1 ∧ g.ctx = ref.2
  /-- include directives have no block, and none stands where there are only parameters -/
  includes : ∀ f ∈ fs, ∀ d, Within d f.tree → d.directive = c!"include" → d.block = none ∧ d.isMapBlockParameter = false
  /-- after each file a statement may begin: the last line, if it has a comment, has a line feed -/
  ends : ∀ f ∈ fs, ∀ d, text f.name = some d → Boundary (lexWith (extLexersOf o.lexers)) d.runes
  /-- the external lexers end before the end of each file, whatever comes after it -/
  closed : ∀ f ∈ fs, ∀ d, text f.name = some d → ∀ call ∈ extCalls (extLexersOf o.lexers) 0 {} d.runes, EndsBefore call
  /-- comments stand between statements, unless they are left out -/
  comments : o.parseComments = false ∨ ∀ f ∈ fs, ∀ d, text f.name = some d → CommentsBetween (lexWith (extLexersOf o.lexers) d.runes)

/-- C77 with external lexers.  If the include directives in the first file of a project are replaced by the texts of the files they stand for, one after the other, until no include
directive stands for a file, then the text, parsed alone, has the tree that `Parse` gives for the project with CombineConfigs, but for the lines and file
names. -/
theorem C77_external {env env' : Env} {o : ParseOptions} {text : Str → Option FileData} {matching : Str → Option (List Str)} (ho : Followed env o text matching)
    {filename filename' : Str} {fs : List SourceFile} {fuel fuel' : Nat} (hf : fs.length < fuel) (hf' : 2 ≤ fuel') (hfresh : ∀ f ∈ fs, Fresh f.ctx.length)
    (h : IsProject env o text matching filename fs) (hi : InlinableE o (diskNames env (env.dir filename) text matching) text fs)
    {main data : FileData} (hmain : text filename = some main)
    (hin : Relation.ReflTransGen (InlinedBy (lexWith (extLexersOf o.lexers)) (fun s => ∀ call ∈ extCalls (extLexersOf o.lexers) 0 {} s, EndsBefore call)
      (fun s => extCalls (extLexersOf o.lexers) 0 {} s = []) (diskNames env (env.dir filename) text matching) (textsOf text fs)) main.runes data.runes)
    (hleft : NoneLeft (diskNames env (env.dir filename) text matching) (lexWith (extLexersOf o.lexers) data.runes))
    (hperm : ∀ l, (env'.mapOrder l).Perm l) (hopen : env'.openFile 0 filename' = .ok data) :
    ∃ out out', Parse env fuel filename { o with combineConfigs := true } = .ok (okPayload [(filename, out)]) ∧
      Parse env' fuel' filename' { o with singleFile := true } = .ok (okPayload [(filename', out')]) ∧ plainList out' = plainList out := by
  set ext := extLexersOf o.lexers with hext
  obtain ⟨f0, rest, out, e0, h0, hx, hp⟩ := C71_combined ho hf hfresh h
  set names := diskNames env (env.dir filename) text matching with hnames
  set r := rulesOf o names with hr
  have htoks : ∀ f ∈ fs, ∃ d, text f.name = some d ∧ (∀ t ∈ lexWith ext d.runes, t.error = none) ∧ Conf r f.ctx (unlink f.tree) (lexWith ext d.runes) := by
    intro f hf
    obtain ⟨ts, h1, h2, h3⟩ := h.conf f hf
    obtain ⟨d, hd, rfl⟩ := Option.map_eq_some_iff.mp h1
    exact ⟨d, hd, h2, h3⟩
  have hfiles := h.files
  have hrep : Replaceable r (fun f => (textsOf text fs f).map (lexWith ext)) fs := by
    refine ⟨?_, ?_, h.linked, hi.context, hi.includes⟩
    · have h1 := congrArg (List.map (·.1)) hfiles
      rw [List.map_map] at h1
      have h2 := collect_nodup (k := [(filename, [])]) (fs.flatMap (·.refs names)) (by simp)
      have h3 : (fs.map (·.name)) = _ := h1
      rw [h3]
      exact h2
    · intro f hf
      obtain ⟨d, h1, h2, h3⟩ := htoks f hf
      refine ⟨lexWith ext d.runes, ?_, h3, ?_⟩
      · rw [textsOf, if_pos (List.mem_map.mpr ⟨f, hf, rfl⟩), h1]; rfl
      · rcases hi.comments with k | k
        · exact Or.inl k
        · exact Or.inr (k f hf d h1)
  have hctx0 : f0.ctx = [] := by
    obtain ⟨l, hl⟩ := collect_prefix [(filename, [])] (fs.flatMap (·.refs names))
    change _ = collect [(filename, [])] (fs.flatMap (·.refs names)) at hfiles
    rw [← hl, e0, List.map_cons, List.singleton_append, List.cons.injEq, Prod.mk.injEq] at hfiles
    exact hfiles.1.2
  have hmem0 : f0 ∈ fs := by rw [e0]; exact List.mem_cons_self ..
  obtain ⟨d0, hd0, herr0, hconf0⟩ := htoks f0 hmem0
  rw [h0, hmain] at hd0
  cases hd0
  have hfull0 : Full r (fun f => (textsOf text fs f).map (lexWith ext)) [] (tagFile [] out) (lexWith ext main.runes) := by
    obtain ⟨ts, k1, k2, k3⟩ := hrep.conf f0 hmem0
    rw [h0] at k1
    have : ts = lexWith ext main.runes := by
      rw [textsOf, if_pos (List.mem_map.mpr ⟨f0, hmem0, h0⟩), hmain] at k1
      exact (Option.some.inj k1).symm
    subst this
    have := Expands.full hrep hx (ts := lexWith ext main.runes) rfl (hrep.linked f0 hmem0) (hrep.context f0 hmem0) (hrep.plainIncl f0 hmem0) k2 k3 .nil
    simpa [hctx0] using this
  have hall : ∀ a, Relation.ReflTransGen (InlinedBy (lexWith ext) (fun s => ∀ call ∈ extCalls ext 0 {} s, EndsBefore call) (fun s => extCalls ext 0 {} s = []) names (textsOf text fs)) main.runes a →
      (∀ t ∈ lexWith ext a, t.error = none) ∧ ∃ ds, Full r (fun f => (textsOf text fs f).map (lexWith ext)) [] ds (lexWith ext a) ∧ plainList ds = plainList out := by
    intro a ha
    induction ha with
    | refl => exact ⟨herr0, _, hfull0, plainList_tagFile _ _⟩
    | tail _ hstep ih =>
      obtain ⟨herr, ds, hfull, hds⟩ := ih
      cases hstep with
      | @stmt pre line post args files hpre hprec hline hlinec hinc hlerr hnm hne htx =>
        have hfs : ∀ f ∈ files, ∃ d, textsOf text fs f = some d ∧ Boundary (lexWith ext) d ∧ (∀ call ∈ extCalls ext 0 {} d, EndsBefore call) ∧ (∀ t ∈ lexWith ext d, t.error = none) ∧ Shape (lexWith ext d) := by
          intro f hf
          obtain ⟨d, hd⟩ := Option.isSome_iff_exists.mp (htx f hf)
          have hd' := hd
          rw [textsOf] at hd
          split at hd
          · rename_i hm
            obtain ⟨g, hg, rfl⟩ := List.mem_map.mp hm
            obtain ⟨d', k1, k2, k3⟩ := htoks g hg
            rw [k1] at hd
            cases hd
            exact ⟨d'.runes, hd', hi.ends g hg d' k1, hi.closed g hg d' k1, k2, k3.shape⟩
          · cases hd
        obtain ⟨b1, b2, b3, b4⟩ := lex_textsE hi.shifts hi.hash files hfs
        have hls : Shape (lexWith ext line) ∧ ∃ T m, lexWith ext line = T ++ [m] ∧ Mark m c!";" := by
          obtain ⟨t, mid, semi, e, k1, k2, k3, k4⟩ := hinc
          rw [e]
          exact ⟨.simple k1 k3 k4 .nil, t :: mid, semi, by simp, k4⟩
        obtain ⟨T1, T2, p, n, g1, g2, g3⟩ := lex_replaceE hi.shifts hi.hash hpre hprec (hline.quietE hlerr hlinec) hlerr hls.1 hls.2 b1 b2 b3 herr
        have hfull2 := hfull.replace (hinc.later p) hnm hne hi.ignore (by
          intro f hf
          obtain ⟨d, k1, -, -, -, k2⟩ := hfs f hf
          exact ⟨lexWith ext d, by simp only [k1, Option.map_some], k2⟩) g1 g2
        obtain ⟨ds', k1, k2⟩ := hfull2.lines (toks' := lexWith ext (pre ++ (texts (textsOf text fs) files ++ post))) (by
          rw [g3]
          simp only [List.map_append, List.map_map]
          have e1 : noLine ∘ laterTok p = noLine := by funext t; exact noLine_later p t
          have e2 : noLine ∘ laterTok n = noLine := by funext t; exact noLine_later n t
          rw [e1, e2, b4])
        refine ⟨?_, ds', k1, k2.trans hds⟩
        intro t ht
        rw [g3] at ht
        rw [g2] at herr
        rcases List.mem_append.mp ht with ht | ht
        · exact herr t (List.mem_append_left _ ht)
        · rcases List.mem_append.mp ht with ht | ht
          · obtain ⟨t', ht', rfl⟩ := List.mem_map.mp ht
            exact b2 t' ht'
          · obtain ⟨t', ht', rfl⟩ := List.mem_map.mp ht
            exact herr t' (List.mem_append_right _ (List.mem_append_right _ ht'))
  obtain ⟨herr, out', hfull, hout⟩ := hall _ hin
  refine ⟨out, out', hp, ?_, hout⟩
  have hconf := hfull.conf (N := fun _ => some []) (fun _ => rfl) hleft
  refine C70_complete (o := { o with singleFile := true }) (data := data) ⟨hperm, ho.combine, Or.inl rfl, hopen⟩ hf' ?_ ?_
  · exact herr
  · exact hconf

/-! ## Lua -/

/-- Every Lua block in the text is closed, and something comes after it. -/
def LuaClosed (s : Str) : Prop :=
  ∀ call ∈ extCalls luaExt 0 {} s, (∃ t ∈ (call.1 call.2.1 call.2.2).1, t.quoted = true) ∧ (call.1 call.2.1 call.2.2).2 < call.2.1.length

theorem LuaClosed.endsBefore {s : Str} (h : LuaClosed s) : ∀ call ∈ extCalls luaExt 0 {} s, EndsBefore call := by
  intro call hc
  obtain ⟨⟨name, hn⟩, -⟩ := extCalls_mem s 0 {} hc
  obtain ⟨hq, hlt⟩ := h call hc
  obtain ⟨lx, rest, line⟩ := call
  simp only at hn hq hlt
  refine ⟨hlt, fun b => ?_⟩
  rw [luaExt_eq] at hn
  split at hn
  · cases hn
    by_cases h : (name == setByLuaBlock) = true
    · simp only [luaLex, if_pos h] at hq ⊢
      exact (luaSetArg_readsTo rest _ _ _ hq).2 b
    · simp only [luaLex, if_neg h] at hq ⊢
      exact (luaStart_readsTo rest _ _ hq).2 b
  · cases hn

/-- C77 for Lua: every Lua block is closed. -/
theorem C77_lua {env env' : Env} {o : ParseOptions} {text : Str → Option FileData} {matching : Str → Option (List Str)} (ho : Followed env o text matching)
    {filename filename' : Str} {fs : List SourceFile} {fuel fuel' : Nat} (hf : fs.length < fuel) (hf' : 2 ≤ fuel') (hfresh : ∀ f ∈ fs, Fresh f.ctx.length)
    (h : IsProject env o text matching filename fs) (hl : o.lexers = luaRegisterLexer) (hign : c!"include" ∉ o.ignoreDirectives)
    (hctx : ∀ f ∈ fs, ∀ ref ∈ f.refs (diskNames env (env.dir filename) text matching), ∃ g ∈ fs, g.name = ref.1 ∧ g.ctx = ref.2)
    (hinc : ∀ f ∈ fs, ∀ d, Within d f.tree → d.directive = c!"include" → d.block = none ∧ d.isMapBlockParameter = false)
    (hends : ∀ f ∈ fs, ∀ d, text f.name = some d → Boundary (lexWith luaExt) d.runes ∧ LuaClosed d.runes)
    (hcom : o.parseComments = false ∨ ∀ f ∈ fs, ∀ d, text f.name = some d → CommentsBetween (lexWith luaExt d.runes))
    {main data : FileData} (hmain : text filename = some main)
    (hin : Relation.ReflTransGen (InlinedBy (lexWith luaExt) LuaClosed (fun s => extCalls luaExt 0 {} s = []) (diskNames env (env.dir filename) text matching)
      (textsOf text fs)) main.runes data.runes)
    (hleft : NoneLeft (diskNames env (env.dir filename) text matching) (lexWith luaExt data.runes))
    (hperm : ∀ l, (env'.mapOrder l).Perm l) (hopen : env'.openFile 0 filename' = .ok data) :
    ∃ out out', Parse env fuel filename { o with combineConfigs := true } = .ok (okPayload [(filename, out)]) ∧
      Parse env' fuel' filename' { o with singleFile := true } = .ok (okPayload [(filename', out')]) ∧ plainList out' = plainList out := by
  have hL : extLexersOf o.lexers = luaExt := by rw [hl]; rfl
  refine C77_external ho hf hf' hfresh h ⟨by rw [hL]; exact lua_shifts, by rw [hL]; exact luaHash, hign, hctx, hinc, ?_, ?_, ?_⟩ hmain ?_ (by rw [hL]; exact hleft) hperm hopen
  · rw [hL]; exact fun f hf d hd => (hends f hf d hd).1
  · rw [hL]; exact fun f hf d hd => (hends f hf d hd).2.endsBefore
  · rw [hL]; exact hcom
  · rw [hL]
    refine Relation.ReflTransGen.mono ?_ _ _ hin
    rintro _ _ ⟨k1, k2, k3, k4, k5, k6, k7, k8, k9⟩
    exact .stmt k1 k2.endsBefore k3 k4 k5 k6 k7 k8 k9

/-! ### Examples, and where it is false -/

/-- The options of the examples with the Lua lexers. -/
def exLuaOpts : ParseOptions := { exOpts with lexers := luaRegisterLexer }

theorem exInlinedLua {names : List Str → Option (List Str)} {text : Str → Option Str} {pre post f a : Str} {s : Str} {tp : List Tok} {m : Tok}
    (hp : (lexWith luaExt pre).filter (·.error == none) = tp ++ [m]) (hm : Mark m c!";" ∨ Mark m c!"{" ∨ Mark m c!"}")
    (he : ∃ s' c, pre = s' ++ [c] ∧ c ≠ '"' ∧ c ≠ '\'' ∧ c ≠ '\\' ∧ c ≠ '\r') (hcl : LuaClosed pre)
    (hs : lexWith luaExt (c!"include " ++ a ++ c!";") = [⟨c!"include", 1, false, none⟩, ⟨a, 1, false, none⟩, ⟨c!";", 1, false, none⟩])
    (hq : extCalls luaExt 0 {} (c!"include " ++ a ++ c!";") = []) (ha : WordTok ⟨a, 1, false, none⟩)
    (hn : names [a] = some [f]) (ht : text f = some s) :
    InlinedBy (lexWith luaExt) LuaClosed (fun s => extCalls luaExt 0 {} s = []) names text (pre ++ (c!"include " ++ a ++ c!";" ++ post)) (pre ++ (s ++ post)) := by
  have e : texts text [f] = s := by simp [texts, ht]
  have := InlinedBy.stmt (lex := lexWith luaExt) (closed := LuaClosed) (quiet := fun s => extCalls luaExt 0 {} s = []) (names := names) (text := text) (pre := pre)
    (stmt := c!"include " ++ a ++ c!";") (post := post) (args := [a]) (files := [f])
    (Or.inr ⟨⟨tp, m, hp, hm⟩, he⟩) hcl
    (Or.inr ⟨⟨[⟨c!"include", 1, false, none⟩, ⟨a, 1, false, none⟩], ⟨c!";", 1, false, none⟩, by rw [hs]; rfl, Or.inl ⟨rfl, rfl⟩⟩, _, ';', rfl, by decide⟩) hq
    ⟨_, [⟨a, 1, false, none⟩], _, hs, exWord (by decide), rfl, .word ha .nil, ⟨rfl, rfl⟩⟩ (by rw [hs]; simp) hn (by simp) (by simp [ht])
  rwa [e] at this

/-- Two files: the second, with a Lua block, is included twice in a block of the first. -/
def exLuaTwo : List (Str × Str) := [(c!"/e/n", c!"http{include a;include a;}"), (c!"/e/a", c!"content_by_lua_block {b}\n")]

def exLuaTwoFiles : List SourceFile :=
  [⟨c!"/e/n", [], [blk c!"http" 1 [] [incl 1 c!"a" [1], incl 1 c!"a" [1]]]⟩, ⟨c!"/e/a", [c!"http"], [dir c!"content_by_lua_block" 1 [c!"b"]]⟩]

theorem exLuaTwo_project : IsProject (exEnv exLuaTwo) exLuaOpts (exTexts exLuaTwo) (exMatching exLuaTwo) c!"/e/n" exLuaTwoFiles where
  files := by decide +kernel
  earlier := by
    intro pre f post h hne
    obtain ⟨p, pre, rfl⟩ := List.exists_cons_of_ne_nil hne
    rw [exLuaTwoFiles, List.cons_append, List.cons.injEq] at h
    obtain ⟨rfl, h⟩ := h
    cases pre with
    | nil =>
      rw [List.nil_append, List.cons.injEq] at h
      obtain ⟨rfl, -⟩ := h
      exact ⟨_, List.mem_singleton.mpr rfl, by decide +kernel⟩
    | cons q pre => simp at h
  conf := by
    intro f hf
    rcases List.mem_cons.mp hf with rfl | hf
    · refine ⟨_, rfl, by decide +kernel, ?_⟩
      have hl : lexWith luaExt c!"http{include a;include a;}" = [⟨c!"http", 1, false, none⟩, ⟨c!"{", 1, false, none⟩, ⟨c!"include", 1, false, none⟩,
        ⟨c!"a", 1, false, none⟩, ⟨c!";", 1, false, none⟩, ⟨c!"include", 1, false, none⟩, ⟨c!"a", 1, false, none⟩, ⟨c!";", 1, false, none⟩,
        ⟨c!"}", 1, false, none⟩] := by decide +kernel
      show Conf (rulesOf exOpts _) [] _ (lexWith luaExt c!"http{include a;include a;}")
      rw [hl]
      refine exBlock (inner := [⟨c!"include", 1, false, none⟩, ⟨c!"a", 1, false, none⟩, ⟨c!";", 1, false, none⟩, ⟨c!"include", 1, false, none⟩,
        ⟨c!"a", 1, false, none⟩, ⟨c!";", 1, false, none⟩]) (by decide) (exWord (by decide)) (by decide +kernel) rfl (by decide) ?_ .nil
      have ha : ∀ a ∈ [c!"a"], WordTok ⟨a, 1, false, none⟩ := fun a ha => by
        obtain rfl := List.mem_singleton.mp ha; exact exWord (by decide)
      exact exSimple (args := [c!"a"]) (by decide) (exWord (by decide)) ha (by decide +kernel) rfl (fun _ => by decide +kernel)
        (exSimple (args := [c!"a"]) (by decide) (exWord (by decide)) ha (by decide +kernel) rfl (fun _ => by decide +kernel) .nil)
    · obtain rfl := List.mem_singleton.mp hf
      refine ⟨_, rfl, by decide +kernel, ?_⟩
      have hl : lexWith luaExt c!"content_by_lua_block {b}\n" = [⟨c!"content_by_lua_block", 1, false, none⟩, ⟨c!"b", 1, true, none⟩, ⟨c!";", 1, false, none⟩] := by
        decide +kernel
      show Conf (rulesOf exOpts _) [c!"http"] _ (lexWith luaExt c!"content_by_lua_block {b}\n")
      rw [hl]
      exact Conf.simple (mid := [⟨c!"b", 1, true, none⟩]) (texts := []) (mapCtx_none.mp (by decide)) (by simp [rulesOf, exOpts]) (exWord (by decide))
        (.word (wordTok_iff.mpr (by decide)) .nil) ⟨rfl, rfl⟩
        ((analyze_rules [] { directive := c!"content_by_lua_block", line := 1, args := [c!"b"] } c!";" [c!"http"] _ _).mp (by decide +kernel)) rfl (fun h => by cases h) .nil
  linked := by decide +kernel
  acyclic := by
    have hno : ∀ a b, (∃ f ∈ exLuaTwoFiles, f.name = a ∧ b ∈ (f.refs (diskNames (exEnv exLuaTwo) c!"/e" (exTexts exLuaTwo) (exMatching exLuaTwo))).map (·.1)) →
        a = c!"/e/n" ∧ b = c!"/e/a" := by
      rintro a b ⟨f, hf, rfl, hb⟩
      rcases List.mem_cons.mp hf with rfl | hf
      · refine ⟨rfl, ?_⟩
        have : b ∈ [c!"/e/a", c!"/e/a"] := hb
        simpa using this
      · obtain rfl := List.mem_singleton.mp hf
        have : b ∈ ([] : List Str) := hb
        cases this
    have hend : ∀ a b, Relation.TransGen (fun a b => ∃ f ∈ exLuaTwoFiles, f.name = a ∧
        b ∈ (f.refs (diskNames (exEnv exLuaTwo) c!"/e" (exTexts exLuaTwo) (exMatching exLuaTwo))).map (·.1)) a b → a = c!"/e/n" ∧ b = c!"/e/a" := by
      intro a b h
      induction h with
      | single h => exact hno _ _ h
      | tail _ h ih => exact ⟨ih.1, (hno _ _ h).2⟩
    intro a h
    obtain ⟨h1, h2⟩ := hend a a h
    rw [h1] at h2
    exact absurd h2 (by decide)

theorem exLuaTwo_inlined : Relation.ReflTransGen (InlinedBy (lexWith luaExt) LuaClosed (fun s => extCalls luaExt 0 {} s = [])
      (diskNames (exEnv exLuaTwo) c!"/e" (exTexts exLuaTwo) (exMatching exLuaTwo)) (textsOf (exTexts exLuaTwo) exLuaTwoFiles))
    c!"http{include a;include a;}" c!"http{content_by_lua_block {b}\ncontent_by_lua_block {b}\n}" := by
  have ha : WordTok ⟨c!"a", 1, false, none⟩ := exWord (by decide)
  have h1 := exInlinedLua (names := diskNames (exEnv exLuaTwo) c!"/e" (exTexts exLuaTwo) (exMatching exLuaTwo)) (text := textsOf (exTexts exLuaTwo) exLuaTwoFiles)
    (pre := c!"http{") (post := c!"include a;}") (f := c!"/e/a") (a := c!"a") (s := c!"content_by_lua_block {b}\n") (tp := [⟨c!"http", 1, false, none⟩])
    (m := ⟨c!"{", 1, false, none⟩) (by decide +kernel) (Or.inr (Or.inl ⟨rfl, rfl⟩)) ⟨c!"http", '{', rfl, by decide⟩ (by unfold LuaClosed; decide +kernel) (by decide +kernel)
    (List.length_eq_zero_iff.mp (by decide +kernel)) ha (by decide +kernel) (by decide +kernel)
  have h2 := exInlinedLua (names := diskNames (exEnv exLuaTwo) c!"/e" (exTexts exLuaTwo) (exMatching exLuaTwo)) (text := textsOf (exTexts exLuaTwo) exLuaTwoFiles)
    (pre := c!"http{content_by_lua_block {b}\n") (post := c!"}") (f := c!"/e/a") (a := c!"a") (s := c!"content_by_lua_block {b}\n")
    (tp := [⟨c!"http", 1, false, none⟩, ⟨c!"{", 1, false, none⟩, ⟨c!"content_by_lua_block", 1, false, none⟩, ⟨c!"b", 1, true, none⟩]) (m := ⟨c!";", 1, false, none⟩)
    (by decide +kernel) (Or.inl ⟨rfl, rfl⟩) ⟨c!"http{content_by_lua_block {b}", '\n', rfl, by decide⟩ (by unfold LuaClosed; decide +kernel) (by decide +kernel)
    (List.length_eq_zero_iff.mp (by decide +kernel)) ha (by decide +kernel) (by decide +kernel)
  exact .tail (.single h1) h2

/-- The theorem for these files. -/
example : ∃ out out', Parse (exEnv exLuaTwo) 3 c!"/e/n" { exLuaOpts with combineConfigs := true } = .ok (okPayload [(c!"/e/n", out)]) ∧
    Parse (exEnv [(c!"/t", c!"http{content_by_lua_block {b}\ncontent_by_lua_block {b}\n}")]) 2 c!"/t" { exLuaOpts with singleFile := true } =
      .ok (okPayload [(c!"/t", out')]) ∧
    plainList out' = plainList out :=
  C77_lua (fs := exLuaTwoFiles) (text := exTexts exLuaTwo) (matching := exMatching exLuaTwo) ⟨fun _ => List.Perm.refl _, exEnv_readOnly _ (by decide +kernel), rfl, rfl⟩
    (by decide) (by decide) (by
    intro f hf
    rcases List.mem_cons.mp hf with rfl | hf
    · exact Or.inl (Nat.zero_le _)
    · obtain rfl := List.mem_singleton.mp hf
      exact Or.inl (Nat.le_refl _)) exLuaTwo_project rfl (by simp [exLuaOpts, exOpts]) (by decide +kernel) (by
    intro f hf d hd hdir
    rcases List.mem_cons.mp hf with rfl | hf
    · simp only [within_cons, blk, incl, Option.some.injEq, exists_eq_left', reduceCtorEq, false_and, exists_const, false_or] at hd
      rcases hd with rfl | (rfl | rfl | h) | h
      · simp at hdir
      · exact ⟨rfl, rfl⟩
      · exact ⟨rfl, rfl⟩
      · cases h with
        | here h => cases h
        | deep h => cases h
      · cases h with
        | here h => cases h
        | deep h => cases h
    · obtain rfl := List.mem_singleton.mp hf
      simp only [within_cons, dir, reduceCtorEq, false_and, exists_const, false_or] at hd
      rcases hd with rfl | h
      · simp at hdir
      · cases h with
        | here h => cases h
        | deep h => cases h) (by
    intro f hf d hd
    rcases List.mem_cons.mp hf with rfl | hf
    · have : d = { runes := c!"http{include a;include a;}" } := (Option.some.inj hd).symm
      subst this
      exact ⟨Or.inr ⟨⟨(lexWith luaExt c!"http{include a;include a;}").dropLast, ⟨c!"}", 1, false, none⟩, by decide +kernel, Or.inr (Or.inr ⟨rfl, rfl⟩)⟩,
        c!"http{include a;include a;", '}', rfl, by decide⟩, by unfold LuaClosed; decide +kernel⟩
    · obtain rfl := List.mem_singleton.mp hf
      have : d = { runes := c!"content_by_lua_block {b}\n" } := (Option.some.inj hd).symm
      subst this
      exact ⟨Or.inr ⟨⟨(lexWith luaExt c!"content_by_lua_block {b}\n").dropLast, ⟨c!";", 1, false, none⟩, by decide +kernel, Or.inl ⟨rfl, rfl⟩⟩,
        c!"content_by_lua_block {b}", '\n', rfl, by decide⟩, by unfold LuaClosed; decide +kernel⟩) (Or.inl rfl)
    (main := { runes := c!"http{include a;include a;}" }) (data := { runes := c!"http{content_by_lua_block {b}\ncontent_by_lua_block {b}\n}" })
    rfl exLuaTwo_inlined (by
      intro a t mid args texts semi b e _ _ hv
      have hno : ∀ t ∈ lexWith luaExt c!"http{content_by_lua_block {b}\ncontent_by_lua_block {b}\n}", t.value ≠ c!"include" := by decide +kernel
      exact absurd hv (hno t (by
        show t ∈ lexWith luaExt c!"http{content_by_lua_block {b}\ncontent_by_lua_block {b}\n}"
        have e' : lexWith luaExt c!"http{content_by_lua_block {b}\ncontent_by_lua_block {b}\n}" = a ++ t :: (mid ++ semi :: b) := e
        rw [e']; simp))) (fun _ => List.Perm.refl _) rfl

/-- **C77** fails of the code for an included file with a Lua directive without a block: in the text the Lua lexer looks for the block after the file. -/
theorem C77_false_lua : ∃ (files : List (Str × Str)) (main inlined : Str) (out out' : List Directive), files.lookup c!"/e/m" = some main ∧
    InlinedBy (lexWith luaExt) LuaClosed (fun s => extCalls luaExt 0 {} s = []) (diskNames (exEnv files) c!"/e" (exTexts files) (exMatching files))
      (fun f => files.lookup f) main inlined ∧
    Parse (exEnv files) 5 c!"/e/m" { exLuaOpts with combineConfigs := true } = .ok (okPayload [(c!"/e/m", out)]) ∧
    Parse (exEnv [(c!"/t", inlined)]) 5 c!"/t" { exLuaOpts with singleFile := true } = .ok (okPayload [(c!"/t", out')]) ∧
    (∀ t ∈ lexWith luaExt inlined, t.value ≠ c!"include") ∧ plainList out' ≠ plainList out :=
  ⟨[(c!"/e/m", c!"user c;include /e/s;x y;"), (c!"/e/s", c!"content_by_lua_block;\n")], c!"user c;include /e/s;x y;", c!"user c;content_by_lua_block;\nx y;",
    [⟨c!"user", 1, [c!"c"], c!"/e/m", none, none, none, false⟩, ⟨c!"content_by_lua_block", 1, [], c!"/e/s", none, none, none, false⟩,
      ⟨c!"x", 1, [c!"y"], c!"/e/m", none, none, none, false⟩],
    [dir c!"user" 1 [c!"c"], dir c!"content_by_lua_block" 1 [[]], dir c!"y" 2 []], rfl,
    exInlinedLua (pre := c!"user c;") (post := c!"x y;") (f := c!"/e/s") (a := c!"/e/s") (s := c!"content_by_lua_block;\n")
      (tp := [⟨c!"user", 1, false, none⟩, ⟨c!"c", 1, false, none⟩]) (m := ⟨c!";", 1, false, none⟩) (by decide +kernel) (Or.inl ⟨rfl, rfl⟩) ⟨c!"user c", ';', rfl, by decide⟩
      (by unfold LuaClosed; decide +kernel) (by decide +kernel) (List.length_eq_zero_iff.mp (by decide +kernel))
      (exWord (by decide)) (by decide +kernel) (by decide +kernel),
    by decide +kernel, by decide +kernel, by decide +kernel, by decide +kernel⟩

end Verif
