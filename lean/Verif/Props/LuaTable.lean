import Verif.Props.Analyze
import Verif.Props.Lua
import Verif.Props.Ex
import Verif.Model.Tables.All
/-!
# C57: the Lua lexer and the Lua directive table
-/
namespace Verif
open Spec

/-- The number of arguments that the Lua lexer makes for a name: the code, and the variable of `set_by_lua_block`. -/
def luaArgCount (name : Str) : Nat := if name = c!"set_by_lua_block" then 2 else 1

/-- A mask without bits 8 to 15 whose only bit below 8 is the given one. -/
def onlyCount (m n : Nat) : Bool := m % 2 ^ 16 == 2 ^ n

theorem onlyCount_iff {m n : Nat} (hn : n < 8) (h : onlyCount m n = true) (term : Str) (args : List Str) :
    MaskOk m term args ↔ term = c!";" ∧ args.length = n := by
  have hb : ∀ i < 16, m.testBit i = decide (n = i) := by
    intro i hi
    have := Nat.testBit_mod_two_pow m 16 i
    rw [show m % 2 ^ 16 = 2 ^ n by simpa [onlyCount] using h, Nat.testBit_two_pow, decide_eq_true hi, Bool.true_and] at this
    exact this.symm
  unfold MaskOk ArgsOk
  simp only [hb 9 (by omega), hb 8 (by omega), hb 10 (by omega), hb 11 (by omega), hb 12 (by omega), hb 13 (by omega), decide_eq_true_eq,
    show n ≠ 8 by omega, show n ≠ 9 by omega, show n ≠ 10 by omega, show n ≠ 11 by omega, show n ≠ 12 by omega, show n ≠ 13 by omega,
    if_false, false_and, or_false, false_implies, true_and]
  constructor
  · rintro ⟨h1, h2, h3⟩
    rw [hb _ (by omega), decide_eq_true_eq] at h3
    exact ⟨h1, h3.symm⟩
  · rintro ⟨h1, h2⟩
    refine ⟨h1, by omega, ?_⟩
    rw [hb _ (by omega), decide_eq_true_eq]
    exact h2.symm

theorem lua_masks : ∀ n ∈ luaDirectiveNames, ∃ ms, MatchLuaLatest n = some ms ∧ ms ≠ [] ∧ ∀ m ∈ ms, onlyCount m (luaArgCount n) = true := by
  have h : luaDirectiveNames.all (fun n => match MatchLuaLatest n with
      | some ms => !ms.isEmpty && ms.all (fun m => onlyCount m (luaArgCount n))
      | none => false) = true := by decide +kernel
  intro n hn
  have := List.all_eq_true.mp h n hn
  cases e : MatchLuaLatest n with
  | none => rw [e] at this; cases this
  | some ms =>
    rw [e] at this
    simp only [Bool.and_eq_true, List.all_eq_true] at this
    exact ⟨ms, rfl, by simpa using this.1, this.2⟩

/-- **C57**.  A mask of a name that the Lua lexer handles accepts exactly the statements that the lexer makes of its block: one argument (two for
`set_by_lua_block`) and a semicolon. -/
theorem C57_masks (n : Str) (hn : n ∈ luaDirectiveNames) : ∃ ms, MatchLuaLatest n = some ms ∧ ms ≠ [] ∧
    ∀ m ∈ ms, ∀ term args, MaskOk m term args ↔ term = c!";" ∧ args.length = luaArgCount n := by
  obtain ⟨ms, h1, h2, h3⟩ := lua_masks n hn
  refine ⟨ms, h1, h2, fun m hm term args => onlyCount_iff ?_ (h3 m hm) term args⟩
  unfold luaArgCount
  split <;> omega

/-- **C57**.  With the Lua table, a statement with a name that the Lua lexer handles and the tokens it makes is accepted unless its context is known and not
one of the directive; it is rejected, if nothing is skipped and the context is known, when it has other arguments or a block. -/
theorem C57_accepted (fname : Str) (stmt : Directive) (term : Str) (ctx : List Str) (o : ParseOptions)
    (hctx : ∀ b ∈ ctx, '>' ∉ b) (hne : ctx ≠ [[]]) (hs : o.directiveSources = [MatchLuaLatest]) (hn : stmt.directive ∈ luaDirectiveNames) :
    analyze fname stmt term ctx o = none ↔ ∀ b, contextBit ctx = some b →
      (o.skipDirectiveContextCheck = true ∨ ∃ m, HasMask [MatchLuaLatest] stmt.directive m ∧ m.testBit b = true) ∧
      (o.skipDirectiveArgsCheck = true ∨ (term = c!";" ∧ stmt.args.length = luaArgCount stmt.directive)) := by
  rw [C24_accepts_iff fname stmt term ctx o hctx hne, hs, if_neg (by simp)]
  obtain ⟨ms, h1, h2, h3⟩ := C57_masks _ hn
  have hk : Known [MatchLuaLatest] stmt.directive := ⟨_, List.mem_singleton.mpr rfl, by rw [h1]; rfl⟩
  have hm : ∀ m, HasMask [MatchLuaLatest] stmt.directive m ↔ m ∈ ms := by
    intro m
    constructor
    · rintro ⟨f, hf, ms', e, hm⟩
      rw [List.mem_singleton.mp hf, h1] at e
      cases e; exact hm
    · exact fun hm => ⟨_, List.mem_singleton.mpr rfl, ms, h1, hm⟩
  unfold StmtOk
  constructor
  · rintro ⟨-, h⟩ b hb
    obtain ⟨h4, h5⟩ := h b hb hk
    refine ⟨h4, h5.imp id ?_⟩
    rintro ⟨m, hm', -, ho⟩
    exact (h3 m ((hm m).mp hm') term _).mp ho
  · intro h
    refine ⟨fun _ => hk, fun b hb _ => ?_⟩
    obtain ⟨h4, h5⟩ := h b hb
    refine ⟨h4, h5.imp id fun ho => ?_⟩
    rcases h4 with h4 | ⟨m, hm', hb'⟩
    · obtain ⟨m, hm'⟩ := List.exists_mem_of_ne_nil _ h2
      exact ⟨m, (hm m).mpr hm', Or.inl h4, (h3 m hm' term _).mpr ho⟩
    · exact ⟨m, hm', Or.inr hb', (h3 m ((hm m).mp hm') term _).mpr ho⟩

example : analyze c!"f" (dir c!"content_by_lua_block" 1 [exLua]) c!";" [c!"http", c!"location"] { directiveSources := [MatchLuaLatest] } = none ∧
    analyze c!"f" (dir c!"content_by_lua_block" 1 [exLua]) c!";" [c!"http", c!"server"] { directiveSources := [MatchLuaLatest] } =
      some { what := c!"\"content_by_lua_block\" directive is not allowed here", file := some c!"f", line := some 1,
             statement := (dir c!"content_by_lua_block" 1 [exLua]).string, blockCtx := c!"server" } ∧
    (analyze c!"f" (dir c!"set_by_lua_block" 1 [exLua]) c!";" [c!"http", c!"server"] { directiveSources := [MatchLuaLatest] }).isSome = true := by
  decide +kernel

/-- The names of the Lua table that end in `_by_lua_block` and are not handled by the Lua lexer. -/
def luaUnhandled : List Str := [c!"precontent_by_lua_block", c!"proxy_ssl_certificate_by_lua_block", c!"proxy_ssl_verify_by_lua_block"]

theorem lua_table_blocks : luaDirectives.all (fun e => !hasSuffix e.1.toList c!"_by_lua_block" || luaDirectiveNames.contains e.1.toList ||
    luaUnhandled.contains e.1.toList) = true := by decide +kernel

/-- **C57** (partial).  That the Lua lexer handles every directive of the Lua table with a block of Lua code (`_by_lua_block`) fails for three names
(`C57_false`); it holds for all others, and all names it handles are such directives. -/
theorem C57_names_partial (n : Str) (hn : n ∉ luaUnhandled) :
    n ∈ luaDirectiveNames ↔ (MatchLuaLatest n).isSome = true ∧ c!"_by_lua_block" <:+ n := by
  constructor
  · intro h
    have : ∀ n ∈ luaDirectiveNames, (MatchLuaLatest n).isSome = true ∧ c!"_by_lua_block" <:+ n := by decide +kernel
    exact this n h
  · rintro ⟨h1, h2⟩
    unfold MatchLuaLatest DirTable.get at h1
    rw [Option.isSome_map] at h1
    obtain ⟨e, he⟩ := Option.isSome_iff_exists.mp h1
    have hname : e.1.toList = n := by simpa using List.find?_some he
    have := List.all_eq_true.mp lua_table_blocks e (List.mem_of_find?_eq_some he)
    rw [hname] at this
    simp only [Bool.or_eq_true, Bool.not_eq_true', List.contains_iff_mem] at this
    rcases this with (h | h) | h
    · unfold hasSuffix at h
      rw [← List.isSuffixOf_iff_suffix] at h2
      rw [h2] at h; cases h
    · exact h
    · exact absurd h hn

/-- A location with a block of Lua code for the given directive. -/
def exUnhandled (name : Str) : Str := c!"http{server{location /{" ++ name ++ c!" { ngx.say(1) }}}}"

/-- The status of a result. -/
def statusOf : Res Payload → Option Str
  | .ok p => some p.status
  | _ => none

theorem statusOf_some {r : Res Payload} {s : Str} (h : statusOf r = some s) : ∃ p, r = .ok p ∧ p.status = s := by
  cases r <;> simp [statusOf] at h
  exact ⟨_, rfl, h⟩

/-- The options of the Lua module: its lexer and table, and the table of nginx. -/
def luaOpts : ParseOptions := { lexers := luaRegisterLexer, directiveSources := [exSource, MatchLuaLatest], errorOnUnknownDirectives := true }

/-- **C57** fails for the three names of the table: the code is lexed as configuration, so that a block that is accepted for any other name, for example
`rewrite_by_lua_block`, is an error. -/
theorem C57_false :
    (∀ n ∈ luaUnhandled, (MatchLuaLatest n).isSome = true ∧ c!"_by_lua_block" <:+ n ∧ n ∉ luaDirectiveNames ∧
      ∃ p, Parse (exEnv [(c!"/e/n", exUnhandled n)]) 3 c!"/e/n" luaOpts = .ok p ∧ p.status = c!"failed") ∧
    (∃ p, Parse (exEnv [(c!"/e/n", exUnhandled c!"rewrite_by_lua_block")]) 3 c!"/e/n" luaOpts = .ok p ∧ p.status = c!"ok") := by
  have h1 : ∀ n ∈ luaUnhandled, (MatchLuaLatest n).isSome = true ∧ c!"_by_lua_block" <:+ n ∧ n ∉ luaDirectiveNames ∧
      statusOf (Parse (exEnv [(c!"/e/n", exUnhandled n)]) 3 c!"/e/n" luaOpts) = some c!"failed" := by decide +kernel
  have h2 : statusOf (Parse (exEnv [(c!"/e/n", exUnhandled c!"rewrite_by_lua_block")]) 3 c!"/e/n" luaOpts) = some c!"ok" := by decide +kernel
  refine ⟨fun n hn => ?_, statusOf_some h2⟩
  obtain ⟨a, b, c, d⟩ := h1 n hn
  exact ⟨a, b, c, statusOf_some d⟩

end Verif
