import Verif.Props.Lua
import Verif.Props.Build
/-!
# C49: files of Lua directives, built and lexed
-/
namespace Verif
open Spec ExtLex

/-- lua.go:179-181 `RegisterBuilder`. -/
def luaRegisterBuilder : RegisterBuilder := ⟨luaBuild, luaDirectiveNames⟩

/-- A Lua directive: one argument with the code, for `set_by_lua_block` an argument without blanks before it. -/
def LuaDirective (d : Directive) : Prop :=
  d.directive ∈ luaDirectiveNames ∧
  ((d.directive ≠ c!"set_by_lua_block" ∧ ∃ code, d.args = [code] ∧ LuaCode code) ∨
   (d.directive = c!"set_by_lua_block" ∧ ∃ arg code, d.args = [arg, code] ∧ arg ≠ [] ∧ (∀ c ∈ arg, isSpaceRune c = false) ∧ LuaCode code))

/-- The block of a Lua directive. -/
def luaBlockOf (items : List Item) (d : Directive) : LuaBlock :=
  match d.args with
  | [a] => ⟨items, d.directive, ' ', none, [], a⟩
  | a :: b :: _ => ⟨items, d.directive, ' ', some ([], a, ' '), [], b⟩
  | [] => ⟨items, d.directive, ' ', none, [], []⟩

theorem luaBlockOf_ok {d : Directive} (h : LuaDirective d) (items : List Item) : (luaBlockOf items d).Ok ∧
    (luaBlockOf items d).items = items ∧ (luaBlockOf items d).name = d.directive ∧ (luaBlockOf items d).chunk.text = unlex items ++ luaBuild d ∧
    (∀ line, ((luaBlockOf items d).toks line).map (·.value) = d.args ++ [c!";"] ∧ ∀ t ∈ (luaBlockOf items d).toks line, t.error = none) := by
  obtain ⟨hn, ⟨hs, code, ha, hc⟩ | ⟨hs, arg, code, ha, h1, h2, hc⟩⟩ := h
  · unfold luaBlockOf luaBuild
    rw [ha, if_neg (by simpa [setByLuaBlock] using hs)]
    refine ⟨⟨hn, rfl, (by decide : ' ' ≠ '\r'), by simp, hc, hs⟩, rfl, rfl, ?_, ?_⟩
    · simp [LuaBlock.chunk, Chunk.text, LuaBlock.body, LuaBlock.lead]
    · intro line; simp [LuaBlock.toks]
  · unfold luaBlockOf luaBuild
    rw [ha, if_pos (by simpa [setByLuaBlock] using hs)]
    refine ⟨⟨hn, rfl, (by decide : ' ' ≠ '\r'), by simp, hc, hs, by simp, h1, h2, rfl⟩, rfl, rfl, ?_, ?_⟩
    · simp [LuaBlock.chunk, Chunk.text, LuaBlock.body, LuaBlock.lead]
    · intro line; simp [LuaBlock.toks]

theorem lua_enquote (isPrint : Char → Bool) {n : Str} (h : n ∈ luaDirectiveNames) : Enquote isPrint n = n := by
  have : ∀ n ∈ luaDirectiveNames, needsQuote n = false := by decide +kernel
  unfold Enquote
  rw [this n h]
  rfl

theorem lua_layout {quote : Str → Str} {ext : Str → Option (Directive → Str)} (ds : List Directive)
    (h : ∀ d ∈ ds, d.directive ≠ c!"#" ∧ ext (quote d.directive) = some luaBuild) (last : Int) :
    layout quote ext 0 last ds = ([], ds.map fun d => ⟨0, luaBuild d⟩) := by
  induction ds generalizing last with
  | nil => rfl
  | cons d ds ih =>
    obtain ⟨h1, h2⟩ := h d (by simp)
    rw [layout, if_neg (fun hc => h1 hc.1)]
    simp only [h2, Option.isSome_some, if_true]
    rw [ih (fun x hx => h x (by simp [hx]))]
    obtain ⟨dd, dl, dargs, df, dincl, dblock, dcomm, dmap⟩ := d
    rw [layoutDir]
    simp only at h2
    rw [h2]
    simp

/-- The blocks of Lua directives, each after the first on a new line. -/
def luaBlocks : List Directive → List LuaBlock
  | [] => []
  | d :: ds => luaBlockOf [] d :: ds.map (luaBlockOf [.space '\n'])

theorem lua_word_nl {name : Str} (hn : name ∈ luaDirectiveNames) : WF ([.space '\n'] ++ [.word (name.map .plain)]) := by
  have : ∀ n ∈ luaDirectiveNames, WF ([.space '\n'] ++ [.word (n.map .plain)]) := by decide +kernel
  exact this name hn

theorem lua_fits_more (ds : List Directive) (h : ∀ d ∈ ds, LuaDirective d) : FitsLua [] true (ds.map (luaBlockOf [.space '\n'])) := by
  induction ds with
  | nil => exact ⟨trivial, by simp [dirNames, NoLua]⟩
  | cons d ds ih =>
    obtain ⟨h1, h2, h3, -⟩ := luaBlockOf_ok (h d (by simp)) [.space '\n']
    refine ⟨?_, ?_, ?_, h1, ih (fun x hx => h x (by simp [hx]))⟩
    · rw [h2, h3]; exact lua_word_nl (h d (by simp)).1
    · rw [h2]; rfl
    · rw [h2]; simp [dirNames, NoLua]

theorem lua_fits (ds : List Directive) (h : ∀ d ∈ ds, LuaDirective d) : FitsLua [] true (luaBlocks ds) := by
  cases ds with
  | nil => exact ⟨trivial, by simp [dirNames, NoLua]⟩
  | cons d ds =>
    obtain ⟨h1, h2, h3, -⟩ := luaBlockOf_ok (h d (by simp)) []
    refine ⟨?_, ?_, ?_, h1, lua_fits_more ds (fun x hx => h x (by simp [hx]))⟩
    · rw [h2, h3]; exact lua_word (h d (by simp)).1
    · rw [h2]; rfl
    · rw [h2]; simp [dirNames, NoLua]

/-- What the tokens of Lua directives are. -/
def luaValues (ds : List Directive) : List Str := ds.flatMap fun d => d.directive :: (d.args ++ [c!";"])

theorem lua_values_more (ds : List Directive) (h : ∀ d ∈ ds, LuaDirective d) : ∀ line start dup,
    (luaToks [] (ds.map (luaBlockOf [.space '\n'])) line start 0 dup).map (·.value) = luaValues ds ∧
    ∀ t ∈ luaToks [] (ds.map (luaBlockOf [.space '\n'])) line start 0 dup, t.error = none := by
  induction ds with
  | nil => intros; simp [luaToks, specToks, luaValues]
  | cons d ds ih =>
    intro line start dup
    obtain ⟨-, h2, h3, -, h5⟩ := luaBlockOf_ok (h d (by simp)) [.space '\n']
    rw [List.map_cons, luaToks, h2]
    simp only [specThen]
    obtain ⟨i1, i2⟩ := ih (fun x hx => h x (by simp [hx])) (line + nls ['\n'] + nls [(luaBlockOf [.space '\n'] d).sep] + nls (luaBlockOf [.space '\n'] d).body) (line + nls ['\n']) false
    obtain ⟨g1, g2⟩ := h5 (line + nls ['\n'] + nls [(luaBlockOf [.space '\n'] d).sep])
    constructor
    · rw [List.map_cons, List.map_append, i1, g1, h3]
      simp [luaValues]
    · intro t ht
      rcases List.mem_cons.mp ht with rfl | ht
      · rfl
      · rcases List.mem_append.mp ht with ht | ht
        · exact g2 t ht
        · exact i2 t ht

/-- C49: a file of Lua directives, built with the Lua builder and lexed with the Lua lexer, gives the names and arguments of the directives, with a semicolon
after each, and no error. -/
theorem C49_file (isPrint : Char → Bool) (o : BuildOptions) (ho : o.extBuilders = none) (hb : o.builders = [luaRegisterBuilder]) (ds : List Directive)
    (h : ∀ d ∈ ds, LuaDirective d) :
    (lexWith luaExt (bodyText isPrint o ds)).map (·.value) = luaValues ds ∧ ∀ t ∈ lexWith luaExt (bodyText isPrint o ds), t.error = none := by
  have hl : ∀ d ∈ ds, d.directive ≠ c!"#" ∧ (buildSetup o).ext (Enquote isPrint d.directive) = some luaBuild := by
    intro d hd
    have hn := (h d hd).1
    refine ⟨?_, ?_⟩
    · intro e
      rw [e] at hn
      revert hn
      decide
    · rw [lua_enquote isPrint hn, C48_last o ho, hb]
      simp [lastBuilder, luaRegisterBuilder, hn]
  have hend : ∀ d ∈ ds, ∃ s, luaBuild d = s ++ ['}'] := by
    intro d hd
    obtain ⟨hn, ⟨hs, code, ha, hc⟩ | ⟨hs, arg, code, ha, -⟩⟩ := h d hd
    · unfold luaBuild
      rw [ha, if_neg (by simpa [setByLuaBlock] using hs)]
      exact ⟨_, rfl⟩
    · unfold luaBuild
      rw [ha, if_pos (by simpa [setByLuaBlock] using hs)]
      exact ⟨_, rfl⟩
  have htext : bodyText isPrint o ds = luaText (luaBlocks ds) [] [] := by
    unfold bodyText fileLines
    rw [lua_layout ds hl]
    simp only [if_true, List.nil_append]
    have e1 : joinLines (indentOf o) o.tabs (ds.map fun d => ⟨0, luaBuild d⟩) = luaText (luaBlocks ds) [] [] := by
      cases ds with
      | nil => rfl
      | cons d ds =>
        have er : ∀ d : Directive, Line.render (indentOf o) o.tabs ⟨0, luaBuild d⟩ = luaBuild d := by
          intro d; unfold Line.render; cases o.tabs <;> simp
        rw [List.map_cons, joinLines, er]
        unfold luaText chunksText luaBlocks
        rw [List.map_cons, List.flatMap_cons, (luaBlockOf_ok (h d (by simp)) []).2.2.2.1]
        simp only [unlex, List.flatMap_nil, List.nil_append, List.append_nil, List.append_assoc, List.append_cancel_left_eq, List.flatMap_map, er]
        have : ∀ x ∈ ds, ((luaBlockOf [.space '\n'] x).chunk).text = '\n' :: luaBuild x := by
          intro x hx
          rw [(luaBlockOf_ok (h x (by simp [hx])) [.space '\n']).2.2.2.1]
          rfl
        clear h hl hend
        induction ds with
        | nil => rfl
        | cons x xs ih =>
          rw [List.flatMap_cons, List.flatMap_cons, ih (fun y hy => this y (by simp [hy])), this x (by simp)]
    rw [e1]
    unfold dropFinalLF
    rw [if_neg]
    rw [← e1]
    rcases List.eq_nil_or_concat ds with rfl | ⟨ds', d, rfl⟩
    · simp [joinLines]
    · obtain ⟨s, hs⟩ := hend d (by simp)
      have er : Line.render (indentOf o) o.tabs ⟨0, luaBuild d⟩ = s ++ ['}'] := by
        unfold Line.render; cases o.tabs <;> simp [hs]
      cases ds' with
      | nil =>
        simp only [List.concat_eq_append, List.nil_append, List.map_cons, List.map_nil, joinLines, List.flatMap_nil, List.append_nil]
        rw [er]
        simp
      | cons x xs =>
        simp only [List.concat_eq_append, List.cons_append, List.map_cons, List.map_append, List.map_nil, joinLines, List.flatMap_append, List.flatMap_cons, List.flatMap_nil,
          List.append_nil]
        rw [er, ← List.append_assoc, ← List.cons_append, ← List.append_assoc]
        simp [List.getLast?_cons]
  rw [htext, C11_text _ [] [] (Or.inl rfl) (lua_fits ds h)]
  cases ds with
  | nil => simp [luaBlocks, luaToks, specToks, luaValues]
  | cons d ds =>
    obtain ⟨-, h2, h3, -, h5⟩ := luaBlockOf_ok (h d (by simp)) []
    rw [luaBlocks, luaToks, h2]
    simp only [specThen]
    obtain ⟨i1, i2⟩ := lua_values_more ds (fun x hx => h x (by simp [hx])) (1 + nls [(luaBlockOf [] d).sep] + nls (luaBlockOf [] d).body) 1 false
    obtain ⟨g1, g2⟩ := h5 (1 + nls [(luaBlockOf [] d).sep])
    constructor
    · rw [List.map_cons, List.map_append, i1, g1, h3]
      simp [luaValues]
    · intro t ht
      rcases List.mem_cons.mp ht with rfl | ht
      · rfl
      · rcases List.mem_append.mp ht with ht | ht
        · exact g2 t ht
        · exact i2 t ht

/-- Two Lua directives. -/
def exLuaDirs : List Directive :=
  [⟨c!"init_by_lua_block", 1, [exLua], [], none, none, none, false⟩, ⟨c!"set_by_lua_block", 3, [c!"$x", c!" return '}' "], [], none, none, none, false⟩]

example : (lexWith luaExt (bodyText (fun _ => true) { builders := [luaRegisterBuilder] } exLuaDirs)).map (·.value) =
    [c!"init_by_lua_block", exLua, c!";", c!"set_by_lua_block", c!"$x", c!" return '}' ", c!";"] := by
  refine (C49_file _ _ rfl rfl exLuaDirs ?_).1
  intro d hd
  simp only [exLuaDirs, List.mem_cons, List.not_mem_nil, or_false] at hd
  rcases hd with rfl | rfl
  · exact ⟨by decide, Or.inl ⟨by decide, exLua, rfl, exLua_ok⟩⟩
  · exact ⟨by decide, Or.inr ⟨rfl, c!"$x", c!" return '}' ", rfl, by decide, by decide, by decide, prefix_counts (by decide), by decide⟩⟩

/-- C49 is false of the code for a `set_by_lua_block` whose argument has a blank: the builder does not quote it. -/
theorem C49_false_arg : ∃ d : Directive, d.directive = c!"set_by_lua_block" ∧ (∃ arg code, d.args = [arg, code] ∧ LuaCode code) ∧
    (lexWith luaExt (luaBuild d)).map (·.value) ≠ d.directive :: (d.args ++ [c!";"]) :=
  ⟨⟨c!"set_by_lua_block", 1, [c!"a b", c!"c"], [], none, none, none, false⟩, rfl, ⟨_, _, rfl, by decide, prefix_counts (by decide), by decide⟩, by decide +kernel⟩

/-- A Lua directive without arguments is built as its name alone, which is lexed as that, without a semicolon. -/
theorem C49_no_args {d : Directive} (hn : d.directive ∈ luaDirectiveNames) (ha : d.args = []) : luaBuild d = d.directive := by
  unfold luaBuild
  rw [ha]
  simp

end Verif
