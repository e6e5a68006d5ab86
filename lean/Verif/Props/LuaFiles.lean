import Verif.Props.LuaTree
import Verif.Props.Refile
/-!
# C67: payloads with Lua blocks, built and parsed again
-/
namespace Verif
open Spec ExtLex

/-! ## Any external builders and lexers -/

/-- A payload that was parsed without errors, with external lexers, is given back when each of its configs is built, with external builders, into its file
and the files are parsed with the same options. -/
theorem C67_external_files {hd : Str → List Str → List Item} {xb : Directive → Option XBlock} (isPrint : Char → Bool) (bo : BuildOptions) {env : Env} {fuel : Nat}
    {filename : Str} {o : ParseOptions} {p : Payload} (hparse : Parse env fuel filename o = .ok p) (herrors : p.errors = []) (hcombine : o.combineConfigs = false)
    (hhash : ∀ r, extLexersOf o.lexers ('#' :: r) = none)
    (hmask : ∀ m, HasMask (sources o) c!"if" m → m.testBit 11 = true ∨ m.testBit 12 = true)
    (hif : ∀ cfg ∈ p.config, ∀ d, Within d cfg.parsed → d.directive = c!"if" → ∃ a as, d.args = a :: as ∧ a ≠ [])
    (hparam : ∀ cfg ∈ p.config, ∀ d, Within d cfg.parsed → d.isMapBlockParameter = true → d.directive ≠ c!"if")
    (hparts : ∀ cfg ∈ p.config, (∃ s, ShapeOf (lexWith (extLexersOf o.lexers) s) cfg.parsed) →
      XText (Enquote isPrint) (buildSetup bo).ext hd xb cfg.parsed ∧ XTreeOk (extLexersOf o.lexers) hd xb cfg.parsed ∧ ReadBy hd cfg.parsed)
    (hapart : ∀ cfg ∈ p.config, CommentsApart cfg.parsed) (hblocks : ∀ cfg ∈ p.config, NoBlankBlocks xb cfg.parsed)
    {env' : Env} (hsame : SamePaths env env') (hperm : ∀ l, (env.mapOrder l).Perm l) (hperm' : ∀ l, (env'.mapOrder l).Perm l)
    (hbuilt : ∀ cfg ∈ p.config, ∃ data, WrittenAs isPrint bo cfg data.runes ∧ ∀ n, env'.openFile n cfg.file = .ok data)
    {fuel' : Nat} (hfuel : p.config.length < fuel') :
    ∃ p', Parse env' fuel' filename o = .ok p' ∧ p'.status = p.status ∧ p'.errors = [] ∧ List.Forall₂ (Reparsed o bo) p.config p'.config := by
  refine refile_toks (hd := hd) hparse herrors hcombine hmask hif hparam hsame hperm hperm' ?_ ?_ hfuel
  · intro cfg hc
    obtain ⟨data, -, h⟩ := hbuilt cfg hc
    exact ⟨data, h⟩
  · intro cfg hc hshape
    obtain ⟨h1, h2, h3⟩ := hparts cfg hc hshape
    obtain ⟨data, hbuild, hop⟩ := hbuilt cfg hc
    refine ⟨h3, data, ?_, hop⟩
    unfold fileToks
    rcases hbuild with e | e | ⟨e1, t, e2, e⟩
    · rw [e]
      have := fullText_xtoks (isPrint := isPrint) hhash h1 h2 (hapart cfg hc) quiescent_nil
      rwa [xtext, List.append_nil] at this
    · rw [e]; exact fullText_nl_xtoks hhash h1 h2 (hapart cfg hc)
    · rw [e]; exact trimmed_xtoks hhash h1 h2 (hapart cfg hc) (hblocks cfg hc) e1 e2

/-! ## Lua -/

/-- What is asked of the trees of a payload with Lua directives.  Comments have to be on one line: the Lua lexer may give an argument that looks like one. -/
structure LuaRebuildable (isPrint : Char → Bool) (ds : List Directive) : Prop where
  comment : ∀ d, Within d ds → IsComment d → CommentText (d.comment.getD [])
  head : ∀ d, Within d ds → ¬ IsComment d → (HeadReadable isPrint d.directive d.args ∧ LuaFree d) ∨
    (LuaDirective d ∧ d.block = none ∧ ∀ arg code, d.args = [arg, code] → arg.head? ≠ some '#' ∧ arg ≠ c!";" ∧ arg ≠ c!"{" ∧ arg ≠ c!"}")
  param : ∀ d, Within d ds → d.isMapBlockParameter = true → d.directive ≠ c!"if"
  apart : CommentsApart ds

theorem luaXBlock_last {d : Directive} {b : XBlock} (h : luaXBlock d = some b) : b.body.getLast? = some '}' := by
  unfold luaXBlock at h
  split at h
  · cases h
    have e : (luaBlockOf [] d).body = ((luaBlockOf [] d).lead ++ '{' :: (luaBlockOf [] d).code) ++ ['}'] := by
      unfold LuaBlock.body; simp
    show (luaBlockOf [] d).body.getLast? = some '}'
    rw [e, List.getLast?_append]
    rfl
  · cases h

theorem luaRefile {isPrint : Char → Bool} {bo : BuildOptions} {env : Env} {fuel : Nat} {filename : Str} {o : ParseOptions} {p : Payload}
    (hparse : Parse env fuel filename o = .ok p) (herrors : p.errors = [])
    (hcombine : o.combineConfigs = false) (hlexers : o.lexers = luaRegisterLexer)
    (hmask : ∀ m, HasMask (sources o) c!"if" m → m.testBit 11 = true ∨ m.testBit 12 = true)
    (hbuildable : ∀ cfg ∈ p.config, LuaRebuildable isPrint cfg.parsed) (hext : bo.extBuilders = none) (hbuilders : bo.builders = [luaRegisterBuilder])
    {env' : Env} (hsame : SamePaths env env') (hperm : ∀ l, (env.mapOrder l).Perm l) (hperm' : ∀ l, (env'.mapOrder l).Perm l)
    (hbuilt : ∀ cfg ∈ p.config, ∃ data, WrittenAs isPrint bo cfg data.runes ∧ ∀ n, env'.openFile n cfg.file = .ok data)
    {fuel' : Nat} (hfuel : p.config.length < fuel') :
    ∃ p', Parse env' fuel' filename o = .ok p' ∧ p'.status = p.status ∧ p'.errors = [] ∧ List.Forall₂ (Reparsed o bo) p.config p'.config := by
  have hL : extLexersOf o.lexers = luaExt := by rw [hlexers]; rfl
  refine C67_external_files (hd := luaHeads isPrint) (xb := luaXBlock) isPrint bo hparse herrors hcombine (by rw [hL]; exact luaHash) hmask ?_
    (fun c hc => (hbuildable c hc).param) ?_ (fun c hc => (hbuildable c hc).apart) ?_ hsame hperm hperm' hbuilt hfuel
  · intro cfg hc d hw hif
    have hcm : ¬ IsComment d := by rintro ⟨e, -⟩; rw [hif] at e; cases e
    rcases (hbuildable cfg hc).head d hw hcm with ⟨h1, -⟩ | ⟨h1, -⟩
    · exact h1.ifCons hif
    · have := h1.1
      rw [hif] at this
      exact absurd this (by decide)
  · rintro cfg hc ⟨s, hshape⟩
    have hb := hbuildable cfg hc
    have hread : LuaReadable isPrint cfg.parsed := by
      intro d hd
      rcases hshape d hd with ⟨h1, h2, h3, -⟩ | ⟨h1, h2⟩
      · exact Or.inl ⟨h1, h2, h3, hb.comment d hd h1⟩
      · rcases hb.head d hd h1 with ⟨h3, h4⟩ | ⟨h3, h4, h5⟩
        · exact Or.inr (Or.inl ⟨h1, h2, h3, h4⟩)
        · exact Or.inr (Or.inr ⟨h3, h2, h4, h5⟩)
    rw [hL]
    exact lua_parts hext hbuilders hread
  · intro cfg _ d _ b hb c hc
    rw [luaXBlock_last hb] at hc
    cases hc
    decide

/-- C67: a payload with Lua blocks that was parsed without errors, following its includes, is given back when each of its configs is built with the Lua builder
(with any indentation, tabs and header) into its file, with or without a line feed at the end, and the files are parsed with the same options.  Only the lines
may differ. -/
theorem C67_files_partial (isPrint : Char → Bool) (bo : BuildOptions) {env : Env} {fuel : Nat} {filename : Str} {o : ParseOptions} {p : Payload}
    (hparse : Parse env fuel filename o = .ok p) (herrors : p.errors = [])
    (hcombine : o.combineConfigs = false) (hlexers : o.lexers = luaRegisterLexer)
    (hmask : ∀ m, HasMask (sources o) c!"if" m → m.testBit 11 = true ∨ m.testBit 12 = true)
    (hbuildable : ∀ cfg ∈ p.config, LuaRebuildable isPrint cfg.parsed) (hindent : 0 ≤ bo.indent)
    (hext : bo.extBuilders = none) (hbuilders : bo.builders = [luaRegisterBuilder])
    {env' : Env} (hsame : SamePaths env env') (hperm : ∀ l, (env.mapOrder l).Perm l) (hperm' : ∀ l, (env'.mapOrder l).Perm l)
    (hbuilt : ∀ cfg ∈ p.config, ∃ text data, buildText isPrint cfg bo = some text ∧ (data.runes = text ∨ data.runes = text ++ ['\n']) ∧
      ∀ n, env'.openFile n cfg.file = .ok data)
    {fuel' : Nat} (hfuel : p.config.length < fuel') :
    ∃ p', Parse env' fuel' filename o = .ok p' ∧ p'.status = p.status ∧ p'.errors = [] ∧ List.Forall₂ (Reparsed o bo) p.config p'.config := by
  refine luaRefile hparse herrors hcombine hlexers hmask hbuildable hext hbuilders hsame hperm hperm' ?_ hfuel
  intro cfg hc
  obtain ⟨text, data, h1, h2, h3⟩ := hbuilt cfg hc
  have htext : text = fullText isPrint bo cfg := by
    unfold buildText at h1
    rw [C45_body isPrint bo hindent] at h1
    simp only [bind, Option.bind, Option.some.injEq] at h1
    exact h1.symm
  refine ⟨data, ?_, h3⟩
  rw [htext] at h2
  rcases h2 with h2 | h2
  · exact Or.inl h2
  · exact Or.inr (Or.inl h2)

/-- C67: the same for a payload that `BuildFiles` wrote to a disk. -/
theorem C67_disk_partial {σ ι : Type} {os : OS σ} {read : σ → Str → Option Str} {file : Str → ι} (hdisk : Disk os read file)
    (isPrint : Char → Bool) (bo : BuildOptions) {env : Env} {fuel : Nat} {filename : Str} {o : ParseOptions} {p : Payload}
    (hparse : Parse env fuel filename o = .ok p) (herrors : p.errors = [])
    (hcombine : o.combineConfigs = false) (hlexers : o.lexers = luaRegisterLexer)
    (hmask : ∀ m, HasMask (sources o) c!"if" m → m.testBit 11 = true ∨ m.testBit 12 = true)
    (hbuildable : ∀ cfg ∈ p.config, LuaRebuildable isPrint cfg.parsed) (hblank : ∀ cfg ∈ p.config, NoBlankEnd cfg.parsed)
    (hindent : 0 ≤ bo.indent) (hext : bo.extBuilders = none) (hbuilders : bo.builders = [luaRegisterBuilder])
    {s s' : σ} {dir base : Str} (hbase : if dir = [] then (os.getwd s).2 = .ok base else base = dir)
    (hbuild : BuildFiles isPrint os s p dir bo = some (none, s')) (hfiles : (p.config.map fun c => file (buildPath os base c.file)).Nodup)
    {env' : Env} (hsame : SamePaths env env') (hperm : ∀ l, (env.mapOrder l).Perm l) (hperm' : ∀ l, (env'.mapOrder l).Perm l)
    (hread : ∀ n f text, read s' (buildPath os base f) = some text → env'.openFile n f = .ok { runes := text })
    {fuel' : Nat} (hfuel : p.config.length < fuel') :
    ∃ p', Parse env' fuel' filename o = .ok p' ∧ p'.status = p.status ∧ p'.errors = [] ∧ List.Forall₂ (Reparsed o bo) p.config p'.config := by
  have hbuilt := buildFiles_written hdisk isPrint bo hindent hext hbase hbuild hfiles
  refine luaRefile hparse herrors hcombine hlexers hmask hbuildable hext hbuilders hsame hperm hperm' ?_ hfuel
  intro cfg hc
  obtain ⟨t, h1, h2⟩ := hbuilt cfg hc
  exact ⟨{ runes := t ++ ['\n'] }, Or.inr (Or.inr ⟨hblank cfg hc, t, h1, rfl⟩), fun n => hread n _ _ h2⟩

/-! ## An example -/

/-- A file with an argument that is the name of a Lua directive. -/
def exLuaMain : Str := c!"http {\n\n\ninclude /e/s; server_name content_by_lua_block; # c\n}"

def exLuaMainTree : List Directive :=
  [blk c!"http" 1 [] [incl 4 c!"/e/s" [1], dir c!"server_name" 4 [c!"content_by_lua_block"], { dir c!"#" 4 [] with comment := some c!" c" }]]

/-- A file with Lua code. -/
def exLuaSub : Str := c!"set_by_lua_block  $x\n{ return '}' } content_by_lua_block {" ++ exLua ++ c!"}"

def exLuaSubTree : List Directive := [dir c!"set_by_lua_block" 1 [c!"$x", c!" return '}' "], dir c!"content_by_lua_block" 2 [exLua]]

theorem exLuaFiles_parse : Parse (exEnv [(c!"/e/m", exLuaMain), (c!"/e/s", exLuaSub)]) 5 c!"/e/m" exLuaFree =
    .ok (okPayload [(c!"/e/m", exLuaMainTree), (c!"/e/s", exLuaSubTree)]) := by
  decide +kernel

/-- The same code on other lines, with the header. -/
def exLuaMainBuilt : Str := header ++ c!"http {\n  include /e/s;\n  server_name content_by_lua_block; # c\n}"

def exLuaSubBuilt : Str := header ++ c!"set_by_lua_block $x { return '}' }\ncontent_by_lua_block {" ++ exLua ++ c!"}"

theorem exLuaMain_rebuildable : LuaRebuildable exPrint exLuaMainTree := by
  have hin : ∀ d, Within d exLuaMainTree → d = blk c!"http" 1 [] [incl 4 c!"/e/s" [1], dir c!"server_name" 4 [c!"content_by_lua_block"], { dir c!"#" 4 [] with comment := some c!" c" }] ∨
      d = incl 4 c!"/e/s" [1] ∨ d = dir c!"server_name" 4 [c!"content_by_lua_block"] ∨ d = { dir c!"#" 4 [] with comment := some c!" c" } := by
    intro d hd
    have := within_everyDir hd
    simpa [everyDir, everyInner_eq, everyBlock, exLuaMainTree, blk, incl, dir] using this
  refine ⟨?_, ?_, ?_, ?_⟩
  · intro d hd hc
    rcases hin d hd with rfl | rfl | rfl | rfl
    · exact absurd hc (by decide)
    · exact absurd hc (by decide)
    · exact absurd hc (by decide)
    · exact ⟨[.plain ' ', .plain 'c'], rfl, by decide⟩
  · intro d hd hc
    left
    rcases hin d hd with rfl | rfl | rfl | rfl
    · exact ⟨plainHead rfl (by decide) (by unfold PlainString; decide), by unfold LuaFree NoLua; decide +kernel⟩
    · exact ⟨plainHead rfl (by decide) (by unfold PlainString; decide), by unfold LuaFree NoLua; decide +kernel⟩
    · exact ⟨plainHead rfl (by decide) (by unfold PlainString; decide), by unfold LuaFree NoLua; decide +kernel⟩
    · exact absurd (by decide) hc
  · intro d hd hp
    rcases hin d hd with rfl | rfl | rfl | rfl <;> cases hp
  · intro l hl
    refine apart_spec ?_
    rcases hl with rfl | ⟨d, hd, hb⟩
    · decide
    · rcases hin d hd with rfl | rfl | rfl | rfl <;> cases hb
      decide

theorem exLuaSub_rebuildable : LuaRebuildable exPrint exLuaSubTree := by
  have hin : ∀ d, Within d exLuaSubTree → d = dir c!"set_by_lua_block" 1 [c!"$x", c!" return '}' "] ∨ d = dir c!"content_by_lua_block" 2 [exLua] := by
    intro d hd
    have := within_everyDir hd
    simpa [everyDir, everyInner_eq, everyBlock, exLuaSubTree, dir] using this
  refine ⟨?_, ?_, ?_, ?_⟩
  · intro d hd hc
    rcases hin d hd with rfl | rfl <;> exact absurd hc (by decide)
  · intro d hd hc
    right
    rcases hin d hd with rfl | rfl
    · refine ⟨⟨by decide, Or.inr ⟨rfl, c!"$x", c!" return '}' ", rfl, by decide, by decide, by decide, prefix_counts (by decide), by decide⟩⟩, rfl, ?_⟩
      intro arg code e
      cases e
      decide
    · refine ⟨⟨by decide, Or.inl ⟨by decide, exLua, rfl, exLua_ok⟩⟩, rfl, ?_⟩
      intro arg code e
      cases e
  · intro d hd hp
    rcases hin d hd with rfl | rfl <;> cases hp
  · intro l hl
    refine apart_spec ?_
    rcases hl with rfl | ⟨d, hd, hb⟩
    · decide
    · rcases hin d hd with rfl | rfl <;> cases hb

theorem exLuaFree_if : ∀ m, HasMask (sources exLuaFree) c!"if" m → m.testBit 11 = true ∨ m.testBit 12 = true := by
  rintro m ⟨f, hf, ms, hm, -⟩
  exact absurd ⟨f, hf, by rw [hm]; rfl⟩ (exFree_unknown c!"if")

example : ∃ p', Parse (exEnv [(c!"/e/m", exLuaMainBuilt), (c!"/e/s", exLuaSubBuilt)]) 3 c!"/e/m" exLuaFree = .ok p' ∧ p'.status = c!"ok" ∧ p'.errors = [] ∧
    List.Forall₂ (Reparsed exLuaFree exLuaBuild) (okPayload [(c!"/e/m", exLuaMainTree), (c!"/e/s", exLuaSubTree)]).config p'.config := by
  refine C67_files_partial exPrint exLuaBuild (env := exEnv [(c!"/e/m", exLuaMain), (c!"/e/s", exLuaSub)]) (fuel := 5)
    (p := okPayload [(c!"/e/m", exLuaMainTree), (c!"/e/s", exLuaSubTree)]) exLuaFiles_parse rfl rfl rfl exLuaFree_if ?_ (by decide) rfl rfl
    ⟨by simp only [exEnv], by simp only [exEnv], by simp only [exEnv], ?_⟩
    (fun _ => List.Perm.refl _) (fun _ => List.Perm.refl _) ?_ (Nat.le_refl 3)
  · intro cfg hc
    simp [okPayload] at hc
    rcases hc with rfl | rfl
    · exact exLuaMain_rebuildable
    · exact exLuaSub_rebuildable
  · funext n a; simp [exEnv]
  · intro cfg hc
    simp [okPayload] at hc
    rcases hc with rfl | rfl
    · exact ⟨exLuaMainBuilt, { runes := exLuaMainBuilt }, by decide +kernel, Or.inl rfl, fun _ => rfl⟩
    · exact ⟨exLuaSubBuilt, { runes := exLuaSubBuilt }, by decide +kernel, Or.inl rfl, fun _ => rfl⟩

example (s' : Str → Option Str)
    (h : BuildFiles exPrint exDisk (fun _ => none) (okPayload [(c!"/e/m", exLuaMainTree), (c!"/e/s", exLuaSubTree)]) [] exLuaBuild = some (none, s')) :
    ∃ p', Parse (exDiskEnv s' (exEnv [(c!"/e/m", exLuaMain), (c!"/e/s", exLuaSub)])) 3 c!"/e/m" exLuaFree = .ok p' ∧ p'.status = c!"ok" ∧ p'.errors = [] ∧
    List.Forall₂ (Reparsed exLuaFree exLuaBuild) (okPayload [(c!"/e/m", exLuaMainTree), (c!"/e/s", exLuaSubTree)]).config p'.config := by
  refine C67_disk_partial exDisk_disk exPrint exLuaBuild (env := exEnv [(c!"/e/m", exLuaMain), (c!"/e/s", exLuaSub)]) (fuel := 5)
    (p := okPayload [(c!"/e/m", exLuaMainTree), (c!"/e/s", exLuaSubTree)]) exLuaFiles_parse rfl rfl rfl exLuaFree_if ?_ ?_ (by decide) rfl rfl
    (s := fun _ => none) (s' := s') (dir := []) (base := c!"/e") (by rw [if_pos rfl]; rfl) h ?_
    (env' := exDiskEnv s' (exEnv [(c!"/e/m", exLuaMain), (c!"/e/s", exLuaSub)])) ?_ (fun _ => List.Perm.refl _) (fun _ => List.Perm.refl _) ?_ (Nat.le_refl 3)
  · intro cfg hc
    simp [okPayload] at hc
    rcases hc with rfl | rfl
    · exact exLuaMain_rebuildable
    · exact exLuaSub_rebuildable
  · intro cfg hc
    simp [okPayload] at hc
    have hlast : ∀ (ds : List Directive) (x : Directive), ds.getLast? = some x → ¬ IsComment x → NoBlankEnd ds := by
      rintro ds x h1 h2 a d rfl hd
      rw [List.getLast?_append] at h1
      cases h1
      exact absurd hd h2
    rcases hc with rfl | rfl
    · exact hlast _ _ rfl (by decide)
    · exact hlast _ _ rfl (by decide)
  · decide +kernel
  · constructor <;> simp only [exDiskEnv]
  · intro n f text hr
    have hr' : s' (buildPath exDisk c!"/e" f) = some text := hr
    simp only [exDiskEnv]
    rw [hr']

end Verif
