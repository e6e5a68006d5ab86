import Verif.Proofs.Reformat
import Verif.Props.Lexer
import Verif.Props.Ex
import Verif.Props.LuaTable
import Verif.Proofs.WFDec
/-!
# C78: the layout of a file does not matter
-/
namespace Verif
open Spec

/-- C78 (tokens).  Texts that differ only in layout have the same tokens, but for lines and for quotes that do not matter. -/
theorem C78_tokens {s s' : Str} (h : Reformatted s s') : List.Forall₂ SameTok (lex s) (lex s') := by
  obtain ⟨a, b, d, e, h1, h2, h3, h4, h5, h6, h7⟩ := h
  rw [C04_carriage_returns s, C04_carriage_returns s', h1, h4, C03_tokens_of_items h2 h3, C03_tokens_of_items h5 h6]
  exact specToks_rel h7 ..

/-- C78 (lines).  `Parse` uses lines only to copy them: if the tokens of all files differ only in lines and in quotes around words that are not special without them, then the results differ only in lines, be they payloads, with or without errors
in them, or errors, for all options and any external lexers. -/
theorem C78_lines {env env' : Env} {o : ParseOptions} (hglob : env'.glob = env.glob) (habs : env'.isAbs = env.isAbs) (hjoin : env'.join = env.join)
    (hdir : env'.dir = env.dir) (horder : env'.mapOrder = env.mapOrder)
    (hfiles : ∀ n f, (∃ e, env.openFile n f = .error e ∧ env'.openFile n f = .error e) ∨
      ∃ d d', env.openFile n f = .ok d ∧ env'.openFile n f = .ok d' ∧
        List.Forall₂ SameTok (lexWith (extLexersOf o.lexers) d.runes) (lexWith (extLexersOf o.lexers) d'.runes))
    (fuel : Nat) (filename : Str) : SameRes SamePayload (Parse env fuel filename o) (Parse env' fuel filename o) :=
  Parse_rel ⟨hglob, habs, hjoin, hdir, horder, hfiles⟩ fuel filename

/-- C78.  If all files are reformatted, the result of `Parse` is the same but for lines. -/
theorem C78_layout {env : Env} {o : ParseOptions} (hl : o.lexers = []) {opens : Nat → Str → Except GoErr FileData}
    (hfiles : ∀ n f, (∃ e, env.openFile n f = .error e ∧ opens n f = .error e) ∨
      ∃ d d', env.openFile n f = .ok d ∧ opens n f = .ok d' ∧ Reformatted d.runes d'.runes)
    (fuel : Nat) (filename : Str) : SameRes SamePayload (Parse env fuel filename o) (Parse { env with openFile := opens } fuel filename o) := by
  refine C78_lines (env := env) (env' := { env with openFile := opens }) rfl rfl rfl rfl rfl (fun n f => ?_) fuel filename
  rcases hfiles n f with h | ⟨d, d', h1, h2, h3⟩
  · exact Or.inl h
  · refine Or.inr ⟨d, d', h1, h2, ?_⟩
    have e : ∀ s, lexWith (extLexersOf o.lexers) s = lex s := by intro s; rw [hl]; rfl
    rw [e, e]
    exact C78_tokens h3

/-- The items of a text on one line. -/
def exTight : List Item :=
  [.word [.plain 'u', .plain 's', .plain 'e', .plain 'r'], .space ' ', .quoted '"' [.plain 'a', .plain ' '] true, .special ';',
   .word [.plain 'h', .plain 't', .plain 't', .plain 'p'], .special '{', .word [.plain 'x'], .special ';', .special '}']

/-- The same with another layout. -/
def exLoose : List Item :=
  [.space '\n', .word [.plain 'u', .plain 's', .plain 'e', .plain 'r'], .space '\t', .quoted '\'' [.plain 'a', .plain ' '] true, .space '\n', .special ';', .space '\n',
   .word [.plain 'h', .plain 't', .plain 't', .plain 'p'], .space ' ', .special '{', .space '\n', .space ' ', .word [.plain 'x'], .special ';', .space '\n', .special '}', .space '\n']

theorem exTight_loose : Reformatted c!"user \"a \";http{x;}" c!"\nuser\t'a '\n;\nhttp {\n x;\n}\n" :=
  ⟨exTight, exLoose, [], [], by decide, by decide +kernel, Or.inl rfl, by decide, by decide +kernel, Or.inl rfl,
    .right (.word (.left (.right (.quoted rfl (.right (.special (.right (.word (.right (.special (.right (.right (.word (.special (.right (.special (.right .nil)))))))))))))))))⟩

/-- A file with an error in it and a reformatted one. -/
example : SameRes SamePayload (Parse (exEnv [(c!"/e/a", c!"user \"a \";http{x;}")]) 2 c!"/e/a" { exOpts with errorOnUnknownDirectives := true })
    (Parse { exEnv [(c!"/e/a", c!"user \"a \";http{x;}")] with
      openFile := (exEnv [(c!"/e/a", c!"\nuser\t'a '\n;\nhttp {\n x;\n}\n")]).openFile } 2 c!"/e/a" { exOpts with errorOnUnknownDirectives := true }) := by
  refine C78_layout rfl (fun n f => ?_) 2 c!"/e/a"
  by_cases hf : f = c!"/e/a"
  · subst hf
    exact Or.inr ⟨_, _, rfl, rfl, exTight_loose⟩
  · refine Or.inl ⟨.other (c!"open " ++ f ++ c!": no such file or directory"), ?_, ?_⟩ <;>
    · unfold exEnv
      simp only [List.lookup, show (f == c!"/e/a") = false from beq_false_of_ne hf]

example : Parse (exEnv [(c!"/e/a", c!"user \"a \";http{x;}")]) 2 c!"/e/a" { exOpts with errorOnUnknownDirectives := true } =
    .ok (badPayload c!"/e/a" 1 (serr c!"unknown directive \"x\"" c!"/e/a" 1 c!"x " c!"http") [dir c!"user" 1 [c!"a "], blk c!"http" 1 [] []]) := by decide +kernel

example : Parse (exEnv [(c!"/e/a", c!"\nuser\t'a '\n;\nhttp {\n x;\n}\n")]) 2 c!"/e/a" { exOpts with errorOnUnknownDirectives := true } =
    .ok (badPayload c!"/e/a" 5 (serr c!"unknown directive \"x\"" c!"/e/a" 5 c!"x " c!"http") [dir c!"user" 2 [c!"a "], blk c!"http" 4 [] []]) := by decide +kernel

/-- Quotes around a name and around arguments, or none. -/
theorem exBare : Reformatted c!"\"user\" 'a' b;" c!"user a \"b\";" :=
  ⟨[.quoted '"' (c!"user".map .plain) true, .space ' ', .quoted '\'' [.plain 'a'] true, .space ' ', .word [.plain 'b'], .special ';'],
    [.word (c!"user".map .plain), .space ' ', .word [.plain 'a'], .space ' ', .quoted '"' [.plain 'b'] true, .special ';'], [], [],
    by decide, by decide +kernel, .inl rfl, by decide, by decide +kernel, .inl rfl,
    .bare rfl (by simp [SpecialWord, textOf, U.text]) (.left (.right (.bare rfl (by simp [SpecialWord, textOf, U.text]) (.left (.right (.dressed rfl (by simp [SpecialWord, textOf, U.text]) (.special .nil)))))))⟩

example : SameRes SamePayload (Parse (exEnv [(c!"/e/a", c!"\"user\" 'a' b;")]) 2 c!"/e/a" exOpts)
    (Parse { exEnv [(c!"/e/a", c!"\"user\" 'a' b;")] with openFile := (exEnv [(c!"/e/a", c!"user a \"b\";")]).openFile } 2 c!"/e/a" exOpts) := by
  refine C78_layout rfl (fun n f => ?_) 2 c!"/e/a"
  by_cases hf : f = c!"/e/a"
  · subst hf
    exact Or.inr ⟨_, _, rfl, rfl, exBare⟩
  · refine Or.inl ⟨.other (c!"open " ++ f ++ c!": no such file or directory"), ?_, ?_⟩ <;>
    · unfold exEnv
      simp only [List.lookup, show (f == c!"/e/a") = false from beq_false_of_ne hf]

/-- Two layouts of a directive with the name of a Lua directive as its argument. -/
def exLuaLine (c : Char) : List Item :=
  [.word (c!"user".map .plain), .space ' ', .word (c!"content_by_lua_block".map .plain), .space c, .word [.plain 'b'], .special ';']

/-- With external lexers the layout matters: an argument before a line feed may be taken for the name of a directive with an external lexer (C10).  Here the Lua lexer
makes of the argument `b`, on a line of its own, an empty argument, and there is no error. -/
theorem C78_false_lexers : ∃ (s s' : Str) (o : ParseOptions), Reformatted s s' ∧
    Parse (exEnv [(c!"/e/a", s)]) 2 c!"/e/a" o = .ok (okPayload [(c!"/e/a", [dir c!"user" 1 [c!"content_by_lua_block", c!"b"]])]) ∧
    Parse (exEnv [(c!"/e/a", s')]) 2 c!"/e/a" o = .ok (okPayload [(c!"/e/a", [dir c!"user" 1 [c!"content_by_lua_block", c!""]])]) :=
  ⟨c!"user content_by_lua_block b;", c!"user content_by_lua_block\nb;", luaOpts,
    ⟨exLuaLine ' ', exLuaLine '\n', [], [], by decide, by decide +kernel, Or.inl rfl, by decide, by decide +kernel, Or.inl rfl,
      .word (.left (.right (.word (.left (.right (.word (.special .nil)))))))⟩, by decide +kernel, by decide +kernel⟩

end Verif
