import Verif.Props.External
import Verif.Proofs.Lua
import Verif.Spec.LuaText
/-!
# C11, C49: Lua blocks
-/
namespace Verif
open Spec ExtLex

/-- The external lexers that `Lua.RegisterLexer` registers. -/
def luaExt : ExtLexers := extLexersOf luaRegisterLexer

theorem luaExt_eq (n : Str) : luaExt n = if n ∈ luaDirectiveNames then some (luaLex n) else none := by
  rw [luaExt, C10_last_wins]
  have key : ∀ l : List Str, ((((l.map fun n => ({ l := luaLex n, stringTokens := [n] } : RegisterLexer)).filter
      (fun r => decide (n ∈ r.stringTokens))).getLast?).map (·.l)) = if n ∈ l then some (luaLex n) else none := by
    intro l
    rw [List.filter_map]
    have : (l.filter ((fun r : RegisterLexer => decide (n ∈ r.stringTokens)) ∘ fun n => { l := luaLex n, stringTokens := [n] })) =
        List.replicate (l.count n) n := by
      rw [← List.filter_eq]
      congr 1
      funext x
      simp [eq_comm]
    rw [this]
    simp only [List.map_replicate, List.getLast?_replicate]
    by_cases h : n ∈ l
    · have : l.count n ≠ 0 := by simpa [List.count_eq_zero] using h
      simp [h, this]
    · have : l.count n = 0 := by simpa [List.count_eq_zero] using h
      simp [h, this]
  exact key luaDirectiveNames

theorem luaStart_block {ws code : Str} (hw : ∀ c ∈ ws, isSpaceRune c = true) (hc : LuaCode code) (line : Int) (n : Nat) (rest : Str) :
    luaStart line n (ws ++ '{' :: (code ++ '}' :: rest)) =
      ([⟨code, line + nls ws + nls code, true, none⟩, ⟨c!";", line + nls ws + nls code, false, none⟩], n + ws.length + 1 + code.length + 1) := by
  rw [luaStart_space ws hw, luaStart]
  simp only [scanLine_eq]
  rw [if_pos (by decide), if_neg (by decide)]
  have := luaBody_closes code (k := 0) (q := none) (inQ := false) (qt := []) rfl ((closes_zero code).mpr hc) [] (line + nls ws + nls ['{']) (n + ws.length + 1) rest
  rw [show ((0 + 1 : Nat) : Int) = 1 from rfl] at this
  rw [this, luaResult, show nls ['{'] = 0 from rfl, Int.add_zero, List.nil_append]

/-- C11: the Lua lexer reads a block and gives its tokens, and leaves what follows. -/
theorem C11_lex (b : LuaBlock) (hb : b.Ok) (line : Int) (rest : Str) : luaLex b.name (b.body ++ rest) line = (b.toks line, b.body.length) := by
  obtain ⟨-, -, -, h4, h5, h6⟩ := hb
  unfold LuaBlock.body LuaBlock.toks LuaBlock.lead luaLex
  revert h6
  rcases b.arg with _ | ⟨w, a, c⟩
  · intro h6
    simp only at h6 ⊢
    rw [if_neg (by simpa [setByLuaBlock] using h6), List.nil_append]
    rw [show b.ws ++ '{' :: (b.code ++ ['}']) ++ rest = b.ws ++ '{' :: (b.code ++ '}' :: rest) by simp]
    rw [luaStart_block h4 h5]
    simp
    omega
  · intro h6
    simp only at h6 ⊢
    obtain ⟨g1, g2, g3, g4, g5⟩ := h6
    rw [if_pos (by simpa [setByLuaBlock] using g1)]
    rw [show w ++ (a ++ [c]) ++ b.ws ++ '{' :: (b.code ++ ['}']) ++ rest = w ++ (a ++ (c :: (b.ws ++ '{' :: (b.code ++ '}' :: rest)))) by simp]
    have na : nls a = 0 := by
      unfold nls
      have : '\n' ∉ a := fun hn => by have := g4 _ hn; revert this; decide
      exact_mod_cast List.count_eq_zero.mpr this
    rw [luaSetArg_space w g2, luaSetArg_arg a g4, List.nil_append, luaSetArg_end g3 g5, luaStart_block h4 h5]
    simp only [nls_append, na]
    refine Prod.ext ?_ ?_
    · simp only [List.singleton_append, List.cons.injEq, Tok.mk.injEq, true_and, and_true]
      refine ⟨?_, ?_, ?_⟩ <;> omega
    · simp; omega

theorem luaNames_plain : ∀ n ∈ luaDirectiveNames, (∀ c ∈ n, ¬ isSpaceRune c ∧ ¬ isSpecialChar c ∧ c ≠ '\\') ∧ n ≠ [] ∧
    (∀ c ∈ n.head?.toList, c ≠ '"' ∧ c ≠ '\'' ∧ c ≠ '#') := by
  decide +kernel

theorem luaNames_free : ∀ n ∈ luaDirectiveNames, ∀ m ∈ luaDirectiveNames, n <+: m → n = m := by decide +kernel

theorem noLua_unregistered {vs : List Str} (h : NoLua vs) : Unregistered luaExt vs := by
  intro v hv n _ hn
  rw [luaExt_eq, if_neg]
  exact fun hm => h v hv n hm hn

theorem fitsLua_fits {last : List Item} {d : Str} (bs : List LuaBlock) : ∀ {dir : Bool}, FitsLua last dir bs → Fits luaExt last d dir (bs.map LuaBlock.chunk) := by
  induction bs with
  | nil => intro dir h; exact ⟨h.1, noLua_unregistered h.2⟩
  | cons b bs ih =>
    intro dir h
    obtain ⟨h1, h2, h3, h4, h5⟩ := h
    have hn := h4.1
    obtain ⟨p1, p2, p3⟩ := luaNames_plain _ hn
    refine ⟨h1, ⟨p1, ?_⟩, h2, noLua_unregistered h3, ?_, h4.2.1, h4.2.2.1, ⟨luaLex b.name, ?_, ?_⟩, ih h5⟩
    · show ∃ c r, b.name = c :: r ∧ _
      rcases hb : b.name with _ | ⟨c, r⟩
      · exact absurd hb p2
      · exact ⟨c, r, rfl, p3 c (by rw [hb]; simp)⟩
    · intro n _ g2 g3
      rw [luaExt_eq, if_neg]
      exact fun hm => g3 (luaNames_free n hm _ hn g2)
    · show luaExt b.name = _
      rw [luaExt_eq, if_pos hn]
    · intro line
      show (luaLex b.name (b.body ++ _) line).2 = b.body.length
      rw [C11_lex b h4]

theorem extToks_lua {last : List Item} {d : Str} (bs : List LuaBlock) : ∀ {dir : Bool}, FitsLua last dir bs → ∀ line start depth dup,
    extToks luaExt last d (bs.map LuaBlock.chunk) line start depth dup = luaToks last bs line start depth dup := by
  induction bs with
  | nil => intros; rfl
  | cons b bs ih =>
    intro dir h line start depth dup
    obtain ⟨h1, h2, h3, h4, h5⟩ := h
    rw [List.map_cons, extToks, luaToks]
    congr 1
    funext line start depth dup
    have e : luaExt b.chunk.name = some (luaLex b.name) := by
      show luaExt b.name = _
      rw [luaExt_eq, if_pos h4.1]
    rw [e]
    simp only []
    rw [show b.chunk.body = b.body from rfl, C11_lex b h4, ih h5]
    rfl

/-- C11: with the Lua lexer registered, a text with any number of Lua blocks has these tokens: each block gives the name, for `set_by_lua_block` its argument,
one quoted token that is exactly the code, and a semicolon; everything else is lexed as usual. -/
theorem C11_text (bs : List LuaBlock) (last : List Item) (d : Str) (hd : Dangling d) (h : FitsLua last true bs) :
    lexWith luaExt (luaText bs last d) = luaToks last bs 1 1 0 false := by
  rw [luaText, C10_chunks luaExt _ last d hd (fitsLua_fits bs h), extToks_lua bs h]


theorem lua_word {name : Str} (hn : name ∈ luaDirectiveNames) : WF ([] ++ [.word (name.map .plain)]) := by
  have : ∀ n ∈ luaDirectiveNames, WF ([] ++ [.word (n.map .plain)]) := by decide +kernel
  exact this name hn

/-- C11: for every Lua directive but `set_by_lua_block`, `name {code}` is lexed as the name, exactly the code, and a semicolon. -/
theorem C11_block {name code : Str} (hn : name ∈ luaDirectiveNames) (hs : name ≠ c!"set_by_lua_block") (hc : LuaCode code) :
    lexWith luaExt (name ++ c!" {" ++ code ++ c!"}") = [⟨name, 1, false, none⟩, ⟨code, 1 + nls code, true, none⟩, ⟨c!";", 1 + nls code, false, none⟩] := by
  have h : FitsLua [] true [⟨[], name, ' ', none, [], code⟩] := by
    refine ⟨?_, rfl, by simp [dirNames, NoLua], ⟨hn, rfl, (by decide : ' ' ≠ '\r'), by simp, hc, hs⟩, trivial, by simp [dirNames, NoLua]⟩
    exact lua_word hn
  have := C11_text _ [] [] (Or.inl rfl) h
  rw [show luaText [⟨[], name, ' ', none, [], code⟩] [] [] = name ++ c!" {" ++ code ++ c!"}" by
    simp [luaText, chunksText, Chunk.text, LuaBlock.chunk, LuaBlock.body, LuaBlock.lead, unlex]] at this
  rw [this]
  simp [luaToks, specThen, LuaBlock.toks, LuaBlock.lead, specToks, nls_single, nls_nil]

/-- C11: `set_by_lua_block arg {code}` is lexed as the name, the argument, exactly the code, and a semicolon. -/
theorem C11_set {arg code : Str} (ha : arg ≠ []) (ha' : ∀ c ∈ arg, isSpaceRune c = false) (hc : LuaCode code) :
    lexWith luaExt (c!"set_by_lua_block " ++ arg ++ c!" {" ++ code ++ c!"}") =
      [⟨c!"set_by_lua_block", 1, false, none⟩, ⟨arg, 1, false, none⟩, ⟨code, 1 + nls code, true, none⟩, ⟨c!";", 1 + nls code, false, none⟩] := by
  have hn : c!"set_by_lua_block" ∈ luaDirectiveNames := by decide
  have h : FitsLua [] true [⟨[], c!"set_by_lua_block", ' ', some ([], arg, ' '), [], code⟩] := by
    refine ⟨?_, rfl, by simp [dirNames, NoLua], ⟨hn, rfl, (by decide : ' ' ≠ '\r'), by simp, hc, rfl, by simp, ha, ha', rfl⟩, trivial, by simp [dirNames, NoLua]⟩
    exact lua_word hn
  have na : nls arg = 0 := by
    unfold nls
    have : '\n' ∉ arg := fun hn => by have := ha' _ hn; revert this; decide
    exact_mod_cast List.count_eq_zero.mpr this
  have := C11_text _ [] [] (Or.inl rfl) h
  rw [show luaText [⟨[], c!"set_by_lua_block", ' ', some ([], arg, ' '), [], code⟩] [] [] = c!"set_by_lua_block " ++ arg ++ c!" {" ++ code ++ c!"}" by
    simp [luaText, chunksText, Chunk.text, LuaBlock.chunk, LuaBlock.body, LuaBlock.lead, unlex]] at this
  rw [this]
  simp [luaToks, specThen, LuaBlock.toks, LuaBlock.lead, specToks, nls_single, nls_nil, nls_append, na]

/-- C11, the converse: whenever the Lua lexer gives a token for a block, that token is the code between the first brace and the brace that closes it. -/
theorem C11_only {name : Str} (hs : name ≠ c!"set_by_lua_block") {rest : Str} {line : Int} {t : Tok} (ht : t ∈ (luaLex name rest line).1) (he : t.error = none) :
    ∃ ws code tail, rest = ws ++ '{' :: (code ++ '}' :: tail) ∧ (∀ c ∈ ws, isSpaceRune c = true) ∧ LuaCode code ∧ (t.value = code ∧ t.quoted = true ∨ t.value = c!";") := by
  rw [luaLex, if_neg (by simpa [setByLuaBlock] using hs)] at ht
  have key : ∀ (rest : Str) (line : Int) (n : Nat), t ∈ (luaStart line n rest).1 →
      ∃ ws code tail, rest = ws ++ '{' :: (code ++ '}' :: tail) ∧ (∀ c ∈ ws, isSpaceRune c = true) ∧ LuaCode code ∧ (t.value = code ∧ t.quoted = true ∨ t.value = c!";") := by
    intro rest
    induction rest with
    | nil => intro line n h; simp [luaStart] at h
    | cons c cs ih =>
      intro line n h
      rw [luaStart] at h
      simp only [isSpace_single] at h
      by_cases hc : isSpaceRune c = true
      · rw [hc] at h
        simp only [Bool.not_true, Bool.false_eq_true, if_false] at h
        obtain ⟨ws, code, tail, rfl, h1, h2, h3⟩ := ih _ _ h
        refine ⟨c :: ws, code, tail, rfl, ?_, h2, h3⟩
        intro x hx
        rcases List.mem_cons.mp hx with rfl | hx
        · exact hc
        · exact h1 x hx
      · have hc : isSpaceRune c = false := by simpa using hc
        rw [hc] at h
        simp only [Bool.not_false, if_true] at h
        by_cases hb : c = '{'
        · subst hb
          rw [if_neg (by decide)] at h
          rcases luaBody_only cs (k := 0) (q := none) (inQ := false) (qt := []) rfl [] (scanLine line '{') (n + 1) with h1 | ⟨code, tail, rfl, h1, h2⟩
          · rw [show ((0 + 1 : Nat) : Int) = 1 from rfl] at h1
            rw [h1] at h
            simp at h
          · rw [show ((0 + 1 : Nat) : Int) = 1 from rfl] at h2
            rw [h2] at h
            refine ⟨[], code, tail, rfl, by simp, (closes_zero code).mp h1, ?_⟩
            simp only [luaResult, List.nil_append, List.mem_cons, List.not_mem_nil, or_false] at h
            rcases h with rfl | rfl
            · exact Or.inl ⟨rfl, rfl⟩
            · exact Or.inr rfl
        · rw [if_pos (by simpa using hb)] at h
          simp only [List.mem_singleton] at h
          subst h
          cases he
  exact key rest line 0 ht

/-- C11: when the text has no block that ends, or something other than a brace comes first, there is no token for the code: nothing at all, or an error. -/
theorem C11_unclosed {name : Str} (hs : name ≠ c!"set_by_lua_block") {rest : Str} (line : Int)
    (h : ∀ ws code tail, rest = ws ++ '{' :: (code ++ '}' :: tail) → (∀ c ∈ ws, isSpaceRune c = true) → ¬ LuaCode code) : ∀ t ∈ (luaLex name rest line).1, t.error ≠ none := by
  intro t ht he
  obtain ⟨ws, code, tail, e, h1, h2, -⟩ := C11_only hs ht he
  exact h ws code tail e h1 h2

theorem prefix_counts {s : Str} (h : ∀ n < s.length + 1, (s.take n).count '}' ≤ (s.take n).count '{') : ∀ p, p <+: s → p.count '}' ≤ p.count '{' := by
  intro p hp
  rw [List.prefix_iff_eq_take.mp hp]
  exact h _ (Nat.lt_succ_of_le hp.length_le)

/-- Code with a table, a string with a brace and a quote, and a line feed. -/
def exLua : Str := c!" local t = {a = \"}'\"}\n return 'x{' "

theorem exLua_ok : LuaCode exLua := by
  exact ⟨by decide +kernel, prefix_counts (by decide +kernel), by decide +kernel⟩

example : lexWith luaExt (c!"content_by_lua_block" ++ c!" {" ++ exLua ++ c!"}") =
    [⟨c!"content_by_lua_block", 1, false, none⟩, ⟨exLua, 1 + nls exLua, true, none⟩, ⟨c!";", 1 + nls exLua, false, none⟩] :=
  C11_block (by decide) (by decide) exLua_ok

example : lexWith luaExt (c!"set_by_lua_block " ++ c!"$x" ++ c!" {" ++ exLua ++ c!"}") =
    [⟨c!"set_by_lua_block", 1, false, none⟩, ⟨c!"$x", 1, false, none⟩, ⟨exLua, 1 + nls exLua, true, none⟩, ⟨c!";", 1 + nls exLua, false, none⟩] :=
  C11_set (arg := c!"$x") (by decide) (by decide) exLua_ok

/-- The text `a{⏎access_by_lua_block⏎{x}b;}`. -/
example : lexWith luaExt c!"a{\naccess_by_lua_block\n{x}b;}" =
    [⟨c!"a", 1, false, none⟩, ⟨c!"{", 1, false, none⟩, ⟨c!"access_by_lua_block", 2, false, none⟩, ⟨c!"x", 3, true, none⟩, ⟨c!";", 3, false, none⟩,
      ⟨c!"b", 3, false, none⟩, ⟨c!";", 3, false, none⟩, ⟨c!"}", 3, false, none⟩] := by
  have h : FitsLua [.word [.plain 'b'], .special ';', .special '}'] true
      [⟨[.word [.plain 'a'], .special '{', .space '\n'], c!"access_by_lua_block", '\n', none, [], c!"x"⟩] := by
    refine ⟨by decide +kernel, by decide +kernel, by unfold NoLua; decide +kernel, ⟨by decide, by decide, by decide, by simp, ⟨by decide, prefix_counts (by decide), by decide⟩, by decide⟩,
      by decide +kernel, by unfold NoLua; decide +kernel⟩
  have := C11_text _ _ [] (Or.inl rfl) h
  rw [show luaText _ _ _ = c!"a{\naccess_by_lua_block\n{x}b;}" from by decide +kernel] at this
  rw [this]
  decide +kernel

/-- C11 is false of the code for quotes as Lua has them: an apostrophe in a Lua comment hides the closing brace, and the block gives no token at all. -/
theorem C11_false_comment : lexWith luaExt c!"content_by_lua_block {-- don't\n}" = [⟨c!"content_by_lua_block", 1, false, none⟩] := by decide +kernel

/-- The same for an escaped quote in a Lua string. -/
theorem C11_false_escape : lexWith luaExt c!"content_by_lua_block {a = '\\''}" = [⟨c!"content_by_lua_block", 1, false, none⟩] := by decide +kernel

/-! ## C49 -/

/-- C49: what the Lua builder writes for a Lua directive is lexed as its name, its code and a semicolon. -/
theorem C49_block {stmt : Directive} {code : Str} (hn : stmt.directive ∈ luaDirectiveNames) (hs : stmt.directive ≠ c!"set_by_lua_block") (ha : stmt.args = [code])
    (hc : LuaCode code) : ∃ l, lexWith luaExt (luaBuild stmt) = [⟨stmt.directive, 1, false, none⟩, ⟨code, l, true, none⟩, ⟨c!";", l, false, none⟩] := by
  refine ⟨1 + nls code, ?_⟩
  rw [luaBuild, if_neg (by simpa [setByLuaBlock] using hs), ha]
  exact C11_block hn hs hc

/-- C49 for `set_by_lua_block`. -/
theorem C49_set {stmt : Directive} {arg code : Str} (hn : stmt.directive = c!"set_by_lua_block") (ha : stmt.args = [arg, code]) (h1 : arg ≠ [])
    (h2 : ∀ c ∈ arg, isSpaceRune c = false) (hc : LuaCode code) :
    ∃ l, lexWith luaExt (luaBuild stmt) = [⟨stmt.directive, 1, false, none⟩, ⟨arg, 1, false, none⟩, ⟨code, l, true, none⟩, ⟨c!";", l, false, none⟩] := by
  refine ⟨1 + nls code, ?_⟩
  rw [luaBuild, if_pos (by simp [setByLuaBlock, hn]), ha, hn]
  exact C11_set h1 h2 hc

end Verif
