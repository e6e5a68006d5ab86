import Verif.Props.Combined
import Verif.Props.LuaFiles
/-!
# C68 with external lexers: combined configurations with Lua blocks
-/
namespace Verif
open Spec

/-- A combined configuration is accepted where it stands, and its directives have the shape of directives that were read. -/
theorem combined_accepted {env : Env} {fuel : Nat} {filename : Str} {o : ParseOptions} {p : Payload}
    (hparse : Parse env fuel filename o = .ok p) (herrors : p.errors = []) (hcombine : o.combineConfigs = false)
    (hmask : ∀ m, HasMask (sources o) c!"if" m → m.testBit 11 = true ∨ m.testBit 12 = true)
    (hone : OneContext p.config) (hdepth : ∀ i c, Stands p.config i c → Fresh c.length)
    {fuel1 : Nat} {q : Payload} (hq : combined fuel1 p = .ok q) {cfg : Config} (hc : q.config = [cfg])
    (hif : ∀ d, Within d cfg.parsed → d.directive = c!"if" → ∃ a as, d.args = a :: as ∧ a ≠ [])
    (hparam : ∀ d, Within d cfg.parsed → d.isMapBlockParameter = true → d.directive ≠ c!"if")
    {single : Bool} (hincl : single = true ∨ ∀ d, Within d cfg.parsed → d.directive = c!"include" → d.isMapBlockParameter = true) :
    Accepted needsQuote { o with singleFile := single } [] cfg.parsed ∧
      ∀ d, Within d cfg.parsed → (IsComment d ∧ d.args = [] ∧ d.block = none) ∨ (¬ IsComment d ∧ d.comment = none) := by
  obtain ⟨cs, ps', h1, -, h3, -⟩ := Parse_ok hparse
  obtain rfl := h3 hcombine
  obtain ⟨c0, rest, rfl, -⟩ := h1.ne_nil _ _ rfl
  obtain ⟨out, st, h4, -, rfl⟩ := (C35_combined_iff (rawPayload ps' (c0 :: rest)) q c0 rest rfl).mp ⟨fuel1, hq⟩
  cases hc
  have hacc := h1.combined_accepts herrors hone hdepth hmask h4 hif hparam
  have hnodes := h1.combined_nodes herrors hone hdepth h4
  refine ⟨?_, ?_⟩
  · intro d c hd hcm
    obtain ⟨a1, a2⟩ := hacc d c hd hcm
    refine ⟨a1, fun hm => ?_⟩
    obtain ⟨a3, a4⟩ := a2 hm
    refine ⟨a3, ?_, a4⟩
    rcases hincl with h | h
    · exact Or.inl h
    · right
      intro hinc
      have hp := h d (at_within hd) hinc
      obtain ⟨d', b, file, hn, -, rfl, -⟩ := hnodes d c hd
      cases hn with
      | comment => cases hp
      | param t args m h1 => exact absurd ((mapCtx_eq _ _).mp h1) (hm m)
      | stmt => cases hp
  · intro d hd
    obtain ⟨c, hat⟩ := within_at hd []
    obtain ⟨d', b, file, -, -, rfl, hb, s, ds, hw, hs⟩ := hnodes d c hat
    rcases hs d' hw with ⟨a1, a2, a3, -⟩ | ⟨a1, a2⟩
    · exact Or.inl ⟨a1, a2, hb.mpr a3⟩
    · exact Or.inr ⟨a1, a2⟩

/-- **C68**, with any external lexers and builders that fit together (as in C67_external): a payload that was parsed without errors and in which every file is included in
one context only can be combined and written into one file. -/
theorem C68_external {hd : Str → List Str → List Item} {xb : Directive → Option XBlock} (isPrint : Char → Bool) (bo : BuildOptions) {env : Env} {fuel : Nat}
    {filename : Str} {o : ParseOptions} {p : Payload}
    (hparse : Parse env fuel filename o = .ok p) (herrors : p.errors = []) (hcombine : o.combineConfigs = false) (hcomments : o.parseComments = true)
    (hhash : ∀ r, extLexersOf o.lexers ('#' :: r) = none) (hmask : ∀ m, HasMask (sources o) c!"if" m → m.testBit 11 = true ∨ m.testBit 12 = true)
    (hone : OneContext p.config) (hdepth : ∀ i c, Stands p.config i c → Fresh c.length)
    {fuel1 : Nat} {q : Payload} (hq : combined fuel1 p = .ok q) {cfg : Config} (hc : q.config = [cfg])
    (hif : ∀ d, Within d cfg.parsed → d.directive = c!"if" → ∃ a as, d.args = a :: as ∧ a ≠ [])
    (hparam : ∀ d, Within d cfg.parsed → d.isMapBlockParameter = true → d.directive ≠ c!"if")
    (htext : XText (Enquote isPrint) (buildSetup bo).ext hd xb cfg.parsed) (htree : XTreeOk (extLexersOf o.lexers) hd xb cfg.parsed) (hread : ReadBy hd cfg.parsed)
    (hapart : CommentsApart cfg.parsed)
    {single : Bool} (hincl : single = true ∨ ∀ d, Within d cfg.parsed → d.directive = c!"include" → d.isMapBlockParameter = true)
    (hindent : 0 ≤ bo.indent) {data : FileData} (hbuild : buildText isPrint cfg bo = some data.runes)
    {env' : Env} (hperm : ∀ l, (env'.mapOrder l).Perm l) {fuel' : Nat} (hfuel : 2 ≤ fuel') {filename' : Str} (hopen : env'.openFile 0 filename' = .ok data) :
    ∃ es, Parse env' fuel' filename' { o with singleFile := single } = .ok (okPayload [(filename', es)]) ∧ Same (headerDirs bo ++ cfg.parsed) es :=
  C67_external (hd := hd) (xb := xb) isPrint bo cfg env' fuel' filename' { o with singleFile := single } data hindent hbuild hhash htext htree hread hapart
    (combined_accepted hparse herrors hcombine hmask hone hdepth hq hc hif hparam hincl).1 hperm hfuel hopen hcombine hcomments

/-- **C68** (partial), with the Lua lexer and the Lua builder. -/
theorem C68_lua_partial (isPrint : Char → Bool) (bo : BuildOptions) {env : Env} {fuel : Nat} {filename : Str} {o : ParseOptions} {p : Payload}
    (hparse : Parse env fuel filename o = .ok p) (herrors : p.errors = []) (hcombine : o.combineConfigs = false) (hcomments : o.parseComments = true)
    (hlexers : o.lexers = luaRegisterLexer) (hmask : ∀ m, HasMask (sources o) c!"if" m → m.testBit 11 = true ∨ m.testBit 12 = true)
    (hone : OneContext p.config) (hdepth : ∀ i c, Stands p.config i c → Fresh c.length)
    {fuel1 : Nat} {q : Payload} (hq : combined fuel1 p = .ok q) {cfg : Config} (hc : q.config = [cfg]) (hbuildable : LuaRebuildable isPrint cfg.parsed)
    {single : Bool} (hincl : single = true ∨ ∀ d, Within d cfg.parsed → d.directive = c!"include" → d.isMapBlockParameter = true)
    (hindent : 0 ≤ bo.indent) (hext : bo.extBuilders = none) (hbuilders : bo.builders = [luaRegisterBuilder])
    {data : FileData} (hbuild : buildText isPrint cfg bo = some data.runes)
    {env' : Env} (hperm : ∀ l, (env'.mapOrder l).Perm l) {fuel' : Nat} (hfuel : 2 ≤ fuel') {filename' : Str} (hopen : env'.openFile 0 filename' = .ok data) :
    ∃ es, Parse env' fuel' filename' { o with singleFile := single } = .ok (okPayload [(filename', es)]) ∧ Same (headerDirs bo ++ cfg.parsed) es := by
  have hif : ∀ d, Within d cfg.parsed → d.directive = c!"if" → ∃ a as, d.args = a :: as ∧ a ≠ [] := by
    intro d hw hi
    have hcm : ¬ IsComment d := by rintro ⟨e, -⟩; rw [hi] at e; cases e
    rcases hbuildable.head d hw hcm with ⟨h1, -⟩ | ⟨h1, -⟩
    · exact h1.ifCons hi
    · have := h1.1
      rw [hi] at this
      exact absurd this (by decide)
  obtain ⟨hacc, hshape⟩ := combined_accepted hparse herrors hcombine hmask hone hdepth hq hc hif hbuildable.param hincl
  refine C67_tree_partial isPrint bo cfg env' fuel' filename' { o with singleFile := single } data hindent hext hbuilders hbuild ?_ hbuildable.apart hacc hperm hfuel hopen
    hcombine hcomments hlexers
  intro d hd
  rcases hshape d hd with ⟨h1, h2, h3⟩ | ⟨h1, h2⟩
  · exact Or.inl ⟨h1, h2, h3, hbuildable.comment d hd h1⟩
  · rcases hbuildable.head d hd h1 with ⟨h3, h4⟩ | ⟨h3, h4, h5⟩
    · exact Or.inr (Or.inl ⟨h1, h2, h3, h4⟩)
    · exact Or.inr (Or.inr ⟨h3, h2, h4, h5⟩)

/-! ## Example -/

/-- The files of Props/LuaFiles, combined. -/
def exLuaCombTree : List Directive :=
  [blk c!"http" 1 [] [dir c!"set_by_lua_block" 1 [c!"$x", c!" return '}' "], dir c!"content_by_lua_block" 2 [exLua], dir c!"server_name" 4 [c!"content_by_lua_block"],
    { dir c!"#" 4 [] with comment := some c!" c" }]]

def exLuaCombBuilt : Str := header ++ c!"http {\n  set_by_lua_block $x { return '}' }\n  content_by_lua_block {" ++ exLua ++ c!"}\n  server_name content_by_lua_block; # c\n}"

theorem exLuaComb_combined : combined 20 (okPayload [(c!"/e/m", exLuaMainTree), (c!"/e/s", exLuaSubTree)]) = .ok (okPayload [(c!"/e/m", exLuaCombTree)]) := by decide +kernel

theorem exLuaComb_rebuildable : LuaRebuildable exPrint exLuaCombTree := by
  have hin : ∀ d, Within d exLuaCombTree → d = blk c!"http" 1 [] [dir c!"set_by_lua_block" 1 [c!"$x", c!" return '}' "], dir c!"content_by_lua_block" 2 [exLua],
        dir c!"server_name" 4 [c!"content_by_lua_block"], { dir c!"#" 4 [] with comment := some c!" c" }] ∨
      d = dir c!"set_by_lua_block" 1 [c!"$x", c!" return '}' "] ∨ d = dir c!"content_by_lua_block" 2 [exLua] ∨
      d = dir c!"server_name" 4 [c!"content_by_lua_block"] ∨ d = { dir c!"#" 4 [] with comment := some c!" c" } := by
    intro d hd
    have := within_everyDir hd
    simpa [everyDir, everyInner_eq, everyBlock, exLuaCombTree, blk, dir] using this
  refine ⟨?_, ?_, ?_, ?_⟩
  · intro d hd hc
    rcases hin d hd with rfl | rfl | rfl | rfl | rfl
    · exact absurd hc (by decide)
    · exact absurd hc (by decide)
    · exact absurd hc (by decide)
    · exact absurd hc (by decide)
    · exact ⟨[.plain ' ', .plain 'c'], rfl, by decide⟩
  · intro d hd hc
    rcases hin d hd with rfl | rfl | rfl | rfl | rfl
    · exact Or.inl ⟨plainHead rfl (by decide) (by unfold PlainString; decide), by unfold LuaFree NoLua; decide +kernel⟩
    · exact Or.inr (exLuaSub_rebuildable.head _ (.here (by simp [exLuaSubTree])) (by decide) |>.resolve_left (fun h => absurd h.2 (by unfold LuaFree NoLua; decide +kernel)))
    · exact Or.inr (exLuaSub_rebuildable.head _ (.here (by simp [exLuaSubTree])) (by decide) |>.resolve_left (fun h => absurd h.2 (by unfold LuaFree NoLua; decide +kernel)))
    · exact Or.inl ⟨plainHead rfl (by decide) (by unfold PlainString; decide), by unfold LuaFree NoLua; decide +kernel⟩
    · exact absurd (by decide) hc
  · intro d hd hp
    rcases hin d hd with rfl | rfl | rfl | rfl | rfl <;> cases hp
  · intro l hl
    refine apart_spec ?_
    rcases hl with rfl | ⟨d, hd, hb⟩
    · decide
    · rcases hin d hd with rfl | rfl | rfl | rfl | rfl <;> cases hb
      decide

example : ∃ es, Parse (exEnv [(c!"/e/n", exLuaCombBuilt)]) 2 c!"/e/n" exLuaFree = .ok (okPayload [(c!"/e/n", es)]) ∧
    Same (headerDirs exLuaBuild ++ exLuaCombTree) es := by
  have hst : ∀ {i : Nat} {c : List Str}, Stands (okPayload [(c!"/e/m", exLuaMainTree), (c!"/e/s", exLuaSubTree)]).config i c → i = 0 ∧ c = [] ∨ i = 1 ∧ c = [c!"http"] := by
    intro i c h
    have := stands_closed (S := [(0, []), (1, [c!"http"])]) (by decide +kernel) h
    simpa using this
  refine C68_lua_partial exPrint exLuaBuild (single := false) exLuaFiles_parse rfl rfl rfl rfl exLuaFree_if ?_ ?_ exLuaComb_combined rfl exLuaComb_rebuildable (Or.inr ?_) (by decide) rfl rfl
    (data := { runes := exLuaCombBuilt }) (by decide +kernel) (fun _ => List.Perm.refl _) (Nat.le_refl 2) rfl
  · intro i c c' h h'
    rcases hst h with ⟨rfl, rfl⟩ | ⟨rfl, rfl⟩ <;> rcases hst h' with ⟨h1, rfl⟩ | ⟨h1, rfl⟩
    · rfl
    · cases h1
    · cases h1
    · rfl
  · intro i c h
    rcases hst h with ⟨-, rfl⟩ | ⟨-, rfl⟩ <;> exact Or.inl (by decide)
  · have h : (everyDir exLuaCombTree).all (fun d => d.directive != c!"include" || d.isMapBlockParameter) = true := by decide +kernel
    intro d hd hi
    have := (List.all_eq_true.mp h) d (within_everyDir hd)
    simpa [hi] using this

end Verif
