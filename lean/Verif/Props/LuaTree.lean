import Verif.Proofs.ExtWritten
import Verif.Props.LuaBuild
import Verif.Props.Rebuild
/-!
# C67: configurations with Lua blocks, built and parsed again
-/
namespace Verif
open Spec ExtLex

/-! ## Any external builders and lexers -/

/-- A tree whose directives are built by external builders or as usual, and whose external blocks are read by external lexers, is given back by `Parse`. -/
theorem C67_external {hd : Str → List Str → List Item} {xb : Directive → Option XBlock} (isPrint : Char → Bool) (bo : BuildOptions) (cfg : Config) (env : Env) (fuel : Nat)
    (filename : Str) (o : ParseOptions) (data : FileData) (hindent : 0 ≤ bo.indent) (hbuild : buildText isPrint cfg bo = some data.runes)
    (hhash : ∀ r, extLexersOf o.lexers ('#' :: r) = none) (htext : XText (Enquote isPrint) (buildSetup bo).ext hd xb cfg.parsed)
    (htree : XTreeOk (extLexersOf o.lexers) hd xb cfg.parsed) (hread : ReadBy hd cfg.parsed) (hapart : CommentsApart cfg.parsed)
    (hacc : Accepted needsQuote o [] cfg.parsed) (hperm : ∀ l, (env.mapOrder l).Perm l) (hfuel : 2 ≤ fuel) (hopen : env.openFile 0 filename = .ok data)
    (hcombine : o.combineConfigs = false) (hcomments : o.parseComments = true) :
    ∃ es, Parse env fuel filename o = .ok (okPayload [(filename, es)]) ∧ Same (headerDirs bo ++ cfg.parsed) es := by
  have hfull : data.runes = fullText isPrint bo cfg := by
    unfold buildText at hbuild
    rw [C45_body isPrint bo hindent] at hbuild
    simp only [bind, Option.bind, Option.some.injEq] at hbuild
    exact hbuild.symm
  have htoks : Toks hd (headerDirs bo ++ cfg.parsed) (fileToks o data) := by
    unfold fileToks
    rw [hfull]
    have := fullText_xtoks hhash htext htree hapart quiescent_nil
    rwa [xtext, List.append_nil] at this
  have hread' : ReadBy hd (headerDirs bo ++ cfg.parsed) := by
    intro d hd
    rcases within_headerDirs hd with h | h
    · exact Or.inl (headerDirs_comment h)
    · exact hread d h
  have hacc' : Accepted needsQuote o [] (headerDirs bo ++ cfg.parsed) := by
    intro d c hd hc
    refine hacc d c ?_ hc
    rcases at_append.mp hd with hd | hd
    · exfalso
      cases hd with
      | here h => exact hc (headerDirs_comment h).1
      | deep hm hb _ => rw [(headerDirs_comment hm).2.2.1] at hb; cases hb
    · exact hd
  obtain ⟨es, ps', h1, h2, h3⟩ := run_toks_by (env := env) (configDir := env.dir filename) (file := filename) hcomments htoks { vals := [], arr := 0, cap := 0 }
    (startFile (initPS filename) []) [] [] rfl hread' hacc' (Or.inl ⟨rfl, rfl⟩)
  rw [List.append_nil] at h1
  exact ⟨es, Parse_one hperm hfuel hcombine hopen h1 h3, h2⟩

/-! ## Lua -/

/-- A directive in which the lexer finds no Lua block: its name does not begin with the name of a Lua directive; nor do its arguments, if the name is quoted
or one of them has a line feed, for then the lexer takes them for names. -/
def LuaFree (d : Directive) : Prop :=
  NoLua [d.directive] ∧ (needsQuote d.directive = true ∨ (∃ a ∈ rawArgs needsQuote d, '\n' ∈ a) → NoLua (rawArgs needsQuote d))

/-- Trees of comments, ordinary directives, and Lua directives.  The argument of `set_by_lua_block` is written as it is, so it must not look like a comment
or a special character. -/
def LuaReadable (isPrint : Char → Bool) (ds : List Directive) : Prop :=
  ∀ d, Within d ds → (IsComment d ∧ d.args = [] ∧ d.block = none ∧ CommentText (d.comment.getD [])) ∨
    (¬ IsComment d ∧ d.comment = none ∧ HeadReadable isPrint d.directive d.args ∧ LuaFree d) ∨
    (LuaDirective d ∧ d.comment = none ∧ d.block = none ∧
      ∀ arg code, d.args = [arg, code] → arg.head? ≠ some '#' ∧ arg ≠ c!";" ∧ arg ≠ c!"{" ∧ arg ≠ c!"}")

/-- The items of names and arguments. -/
noncomputable def luaHeads (isPrint : Char → Bool) (name : Str) (args : List Str) : List Item :=
  if name ∈ luaDirectiveNames then
    .word (name.map .plain) :: match args with
      | [] => []
      | [a] => [.quoted '"' (a.map .plain) true]
      | a :: b :: _ => [.word (a.map .plain), .quoted '"' (b.map .plain) true]
  else heads isPrint name args

/-- The blocks of Lua directives. -/
def luaXBlock (d : Directive) : Option XBlock :=
  if d.directive ∈ luaDirectiveNames then
    some ⟨(luaBlockOf [] d).name, (luaBlockOf [] d).sep, (luaBlockOf [] d).body, (luaBlockOf [] d).toks⟩
  else none

theorem quotedValue_plain (q : Char) (s : Str) : quotedValue q (s.map .plain) = s := by
  induction s with
  | nil => rfl
  | cons c s ih => rw [List.map_cons, quotedValue_cons, ih]; simp [U.text]

theorem luaHash (r : Str) : luaExt ('#' :: r) = none := by
  rw [luaExt_eq, if_neg]
  intro h
  have := (luaNames_plain _ h).2.2 '#' (by simp)
  exact this.2.2 rfl

theorem LuaDirective.notComment {d : Directive} (h : LuaDirective d) : ¬ IsComment d := by
  rintro ⟨hc, -⟩
  have := h.1
  rw [hc] at this
  revert this; decide

theorem luaNames_enquote {isPrint : Char → Bool} {s : Str} (h : Enquote isPrint s ∈ luaDirectiveNames) : s ∈ luaDirectiveNames := by
  cases hn : needsQuote s with
  | false => rwa [Enquote_plain isPrint hn] at h
  | true =>
    obtain ⟨q, r, e, hq⟩ := Enquote_start isPrint hn
    rw [e] at h
    have := (luaNames_plain _ h).2.2 q (by simp)
    rcases hq with rfl | rfl
    · exact absurd rfl this.1
    · exact absurd rfl this.2.1

theorem luaXBlock_ok {d : Directive} (h : LuaDirective d) : ∃ b, luaXBlock d = some b ∧ b.Ok luaExt ∧ b.text = luaBuild d := by
  obtain ⟨h1, h2, h3, h4, -⟩ := luaBlockOf_ok h []
  have hn := h.1
  refine ⟨_, by unfold luaXBlock; rw [if_pos hn], ?_, ?_⟩
  · obtain ⟨p1, p2, p3⟩ := luaNames_plain _ h1.1
    refine ⟨⟨p1, ?_⟩, ?_, h1.2.1, h1.2.2.1, ⟨luaLex (luaBlockOf [] d).name, ?_, fun rest line => C11_lex _ h1 line rest⟩, ?_⟩
    · show ∃ c r, (luaBlockOf [] d).name = c :: r ∧ _
      rcases hb : (luaBlockOf [] d).name with _ | ⟨c, r⟩
      · exact absurd hb p2
      · exact ⟨c, r, rfl, p3 c (by rw [hb]; simp)⟩
    · intro n _ g2 g3
      rw [luaExt_eq, if_neg]
      exact fun hm => g3 (luaNames_free n hm _ h1.1 g2)
    · show luaExt (luaBlockOf [] d).name = _
      rw [luaExt_eq, if_pos h1.1]
    · have e : (luaBlockOf [] d).body = ((luaBlockOf [] d).lead ++ '{' :: (luaBlockOf [] d).code) ++ ['}'] := by
        unfold LuaBlock.body; simp
      show (luaBlockOf [] d).body.getLast? ≠ none ∧ (luaBlockOf [] d).body.getLast? ≠ some '\n'
      rw [e, List.getLast?_append]
      simp
  · have e : (luaBlockOf [] d).chunk.text = unlex [] ++ ((luaBlockOf [] d).name ++ (luaBlockOf [] d).sep :: (luaBlockOf [] d).body) := by
      unfold Chunk.text LuaBlock.chunk
      rw [h2]
    rw [e] at h4
    exact List.append_cancel_left h4

/-- The values of the tokens of a Lua directive. -/
theorem luaHeads_vals {isPrint : Char → Bool} {d : Directive} (h : LuaDirective d) :
    (∀ line line', ∃ toks l, (luaBlockOf [] d).toks line = toks ++ [⟨c!";", l, false, none⟩] ∧
      Vals (⟨(luaBlockOf [] d).name, line', false, none⟩ :: toks) (itemVals (luaHeads isPrint d.directive d.args))) ∧
    ((∀ arg code, d.args = [arg, code] → arg.head? ≠ some '#' ∧ arg ≠ c!";" ∧ arg ≠ c!"{" ∧ arg ≠ c!"}") →
      HeadVals (itemVals (luaHeads isPrint d.directive d.args)) d) := by
  have hraw : rawArgs needsQuote d = d.args := by
    unfold rawArgs
    rw [if_neg]
    intro e
    have := h.1
    rw [e] at this
    revert this; decide
  have hif : d.directive ≠ c!"if" := by
    intro e
    have := h.1
    rw [e] at this
    revert this; decide
  have hname : ValOk (d.directive, false) := by
    have key : ∀ n ∈ luaDirectiveNames, n.head? ≠ some '#' ∧ n ≠ c!";" ∧ n ≠ c!"{" ∧ n ≠ c!"}" := by decide +kernel
    obtain ⟨k1, k2⟩ := key _ h.1
    refine ⟨?_, fun _ => k2⟩
    rintro ⟨-, t, e⟩
    simp only at e
    rw [e] at k1
    exact k1 rfl
  obtain ⟨hn, ⟨hs, code, ha, hc⟩ | ⟨hs, arg, code, ha, h1, h2, hc⟩⟩ := h
  · have e : itemVals (luaHeads isPrint d.directive d.args) = [(d.directive, false), (code, true)] := by
      unfold luaHeads
      rw [if_pos hn, ha]
      simp [itemVals, textOf_plain, quotedValue_plain]
    constructor
    · intro line line'
      unfold luaBlockOf
      rw [e, ha]
      exact ⟨[⟨code, line + nls [] + nls code, true, none⟩], line + nls [] + nls code, rfl, rfl⟩
    · intro _
      rw [e]
      refine ⟨false, [(code, true)], rfl, by rw [hraw, ha]; rfl, fun e => absurd e hif, ?_⟩
      intro x hx
      simp only [List.mem_cons, List.not_mem_nil, or_false] at hx
      rcases hx with rfl | rfl
      · exact hname
      · exact ⟨fun h => by simp at h, fun h => by simp at h⟩
  · have e : itemVals (luaHeads isPrint d.directive d.args) = [(d.directive, false), (arg, false), (code, true)] := by
      unfold luaHeads
      rw [if_pos hn, ha]
      simp [itemVals, textOf_plain, quotedValue_plain]
    constructor
    · intro line line'
      unfold luaBlockOf
      rw [e, ha]
      exact ⟨[⟨arg, line + nls ([] ++ [' ']), false, none⟩, ⟨code, _, true, none⟩], _, rfl, rfl⟩
    · intro hv
      obtain ⟨v1, v2⟩ := hv arg code ha
      rw [e]
      refine ⟨false, [(arg, false), (code, true)], rfl, by rw [hraw, ha]; rfl, fun e => absurd e hif, ?_⟩
      intro x hx
      simp only [List.mem_cons, List.not_mem_nil, or_false] at hx
      rcases hx with rfl | rfl | rfl
      · exact hname
      · refine ⟨?_, fun _ => v2⟩
        rintro ⟨-, t, e⟩
        simp only at e
        rw [e] at v1
        exact v1 rfl
      · exact ⟨fun h => by simp at h, fun h => by simp at h⟩

theorem LuaReadable.headOk {isPrint : Char → Bool} {d : Directive} (h : HeadReadable isPrint d.directive d.args) :
    HeadOk (heads isPrint d.directive d.args) ∧ unlex (heads isPrint d.directive d.args) = headText (Enquote isPrint) d.directive d.args := by
  have h1 : ∀ a ∈ d.directive :: d.args, ∃ v, IsToken (Enquote isPrint a) v := fun a ha => ⟨a, h.token a ha⟩
  have h2 : Enquote isPrint d.directive = c!"if" → ∀ a as, d.args = a :: as → IsWordItem (itemOf isPrint a) := by
    intro e a as ea
    exact itemOf_word (h1 a (by simp [ea])) (h.ifFirst ((Enquote_if isPrint _).mp e) a as ea)
  exact ⟨headItems_ok (fun a ha => (itemOf_spec (h1 a ha)).2) h2, headItems_text _ _ (fun a ha => (itemOf_spec (h1 a ha)).1) h2⟩

theorem headItems_space {quote : Str → Str} {it : Str → Item} {name : Str} {args : List Str} (h : ∀ a ∈ name :: args, ∃ v, OneTok (it a) v) {c : Char}
    (hc : .space c ∈ headItems quote it name args) : c = ' ' := by
  have h0 : ∀ {i : Item} {v : Str}, OneTok i v → .space c ≠ i := by
    rintro i v h rfl
    cases h
  have hopen : ∀ i : Item, (∃ v, OneTok i v) → .space c ≠ openParen i := by
    rintro i ⟨v, h⟩ e
    cases h <;> cases e
  have hclose : ∀ i : Item, .space c ≠ i → .space c ∉ closeParen i := by
    intro i hi hm
    cases i <;> simp [closeParen] at hm
    exact hi (by rw [hm])
  have hparen : ∀ (as : List Str) (i : Item), .space c ≠ i → (∀ a ∈ as, ∃ v, OneTok (it a) v) → .space c ∈ parenTail it i as → c = ' ' := by
    intro as
    induction as with
    | nil => intro i hi _ hm; exact absurd hm (hclose i hi)
    | cons b bs ih =>
      intro i hi ha hm
      rw [parenTail] at hm
      rcases List.mem_cons.mp hm with hm | hm
      · exact absurd hm hi
      · rcases List.mem_cons.mp hm with hm | hm
        · cases hm; rfl
        · obtain ⟨v, hv⟩ := ha b (by simp)
          exact ih _ (h0 hv) (fun a h => ha a (by simp [h])) hm
  obtain ⟨v, hv⟩ := h name (by simp)
  unfold headItems at hc
  split at hc
  · rcases List.mem_cons.mp hc with hc | hc
    · exact absurd hc (h0 hv)
    · rcases List.mem_cons.mp hc with hc | hc
      · cases hc; rfl
      · cases args with
        | nil => simp [ifItems] at hc
        | cons a as => exact hparen as _ (hopen _ (h a (by simp))) (fun b hb => h b (by simp [hb])) hc
  · rcases List.mem_cons.mp hc with hc | hc
    · exact absurd hc (h0 hv)
    · unfold argItems at hc
      obtain ⟨a, ha, hc⟩ := List.mem_flatMap.mp hc
      simp only [List.mem_cons, List.not_mem_nil, or_false] at hc
      rcases hc with hc | hc
      · cases hc; rfl
      · obtain ⟨v, hv⟩ := h a (by simp [ha])
        exact absurd hc (h0 hv)

/-- The lexer finds no Lua block in such a directive. -/
theorem luaFree_items {isPrint : Char → Bool} {d : Directive} (h : HeadReadable isPrint d.directive d.args) (hl : LuaFree d) :
    FreeItems luaExt (heads isPrint d.directive d.args) := by
  obtain ⟨q, vs, e1, e2, -⟩ := h.vals
  have hok := (LuaReadable.headOk h).1
  refine noLua_unregistered ?_
  by_cases hq : needsQuote d.directive = true ∨ ∃ a ∈ rawArgs needsQuote d, '\n' ∈ a
  · intro v hv
    have hm := dirNames_vals _ _ (Nat.le_refl _) (fun us e hm => hok.simple _ hm) _ v hv
    rw [e1, List.map_cons, e2] at hm
    rcases List.mem_cons.mp hm with rfl | hm
    · exact hl.1 _ (by simp)
    · exact hl.2 hq v hm
  · have hn : needsQuote d.directive = false := by
      cases hn : needsQuote d.directive with
      | false => rfl
      | true => exact absurd (Or.inl hn) hq
    obtain ⟨us, hus⟩ := (h.word_iff (List.mem_cons_self ..)).mp hn
    have hrest : ∃ rest, heads isPrint d.directive d.args = .word us :: rest ∧ (rest = [] ∨ ∃ r, rest = .space ' ' :: r) := by
      unfold heads headItems
      rw [hus]
      split
      · exact ⟨_, rfl, Or.inr ⟨_, rfl⟩⟩
      · refine ⟨_, rfl, ?_⟩
        cases d.args with
        | nil => exact Or.inl rfl
        | cons a as => exact Or.inr ⟨_, rfl⟩
    obtain ⟨rest, e, hr⟩ := hrest
    rw [e, itemVals] at e1
    obtain ⟨e3, e4⟩ := List.cons.inj e1
    have hsp : ∀ c, .space c ∈ heads isPrint d.directive d.args → c = ' ' := fun c hc =>
      headItems_space (fun a ha => ⟨a, itemOf_value (h.token a ha)⟩) hc
    have hname : textOf us = d.directive := congrArg Prod.fst e3
    rw [e]
    rw [e] at hsp
    have hsimple := hok.simple
    rw [e] at hsimple
    rcases hr with rfl | ⟨r, rfl⟩
    · intro v hv
      simp [dirNames] at hv
      subst hv
      rw [hname]
      exact hl.1 _ (by simp)
    · rw [dirNames, dirNames_quiet r.length r (Nat.le_refl _)]
      · intro v hv
        simp at hv
        subst hv
        rw [hname]
        exact hl.1 _ (by simp)
      · exact fun i hi => hsimple i (by simp [hi])
      · rintro c hc rfl
        have := hsp '\n' (by simp [hc])
        revert this; decide
      · intro v hv hx
        rw [itemVals] at e4
        · rw [e4] at hv
          exact hq (Or.inr ⟨v.1, by rw [← e2]; exact List.mem_map_of_mem hv, hx⟩)
        all_goals simp

/-- What `C67_external` asks of a tree, for Lua. -/
theorem lua_parts {isPrint : Char → Bool} {bo : BuildOptions} {ds : List Directive} (hext : bo.extBuilders = none) (hbuilders : bo.builders = [luaRegisterBuilder])
    (hread : LuaReadable isPrint ds) :
    XText (Enquote isPrint) (buildSetup bo).ext (luaHeads isPrint) luaXBlock ds ∧ XTreeOk luaExt (luaHeads isPrint) luaXBlock ds ∧ ReadBy (luaHeads isPrint) ds := by
  have hB : ∀ n, (buildSetup bo).ext n = if n ∈ luaDirectiveNames then some luaBuild else none := by
    intro n
    rw [C48_last bo hext, hbuilders]
    by_cases hn : n ∈ luaDirectiveNames <;> simp [lastBuilder, luaRegisterBuilder, hn]
  have hcase : ∀ d, Within d ds → d.directive ∉ luaDirectiveNames → luaXBlock d = none ∧ (buildSetup bo).ext (Enquote isPrint d.directive) = none ∧
      luaHeads isPrint d.directive d.args = heads isPrint d.directive d.args := by
    intro d _ hn
    exact ⟨by unfold luaXBlock; rw [if_neg hn], by rw [hB, if_neg (fun h => hn (luaNames_enquote h))], by unfold luaHeads; rw [if_neg hn]⟩
  have hcom : ∀ d : Directive, IsComment d → d.directive ∉ luaDirectiveNames := by
    intro d hd h
    rw [hd.1] at h
    revert h; decide
  have hord : ∀ d : Directive, LuaFree d → d.directive ∉ luaDirectiveNames :=
    fun d hd h => hd.1 _ (List.mem_cons_self ..) _ h (List.prefix_refl _)
  refine ⟨?_, ?_, ?_⟩
  · intro d hd
    rcases hread d hd with ⟨h1, -⟩ | ⟨h1, -, h2, h3⟩ | ⟨h1, -⟩
    · obtain ⟨c1, c2, -⟩ := hcase d hd (hcom d h1)
      exact Or.inl ⟨c1, c2, fun h => absurd h1 h⟩
    · obtain ⟨c1, c2, c3⟩ := hcase d hd (hord d h3)
      refine Or.inl ⟨c1, c2, fun _ => ?_⟩
      rw [c3]; exact (LuaReadable.headOk h2).2
    · obtain ⟨b, b1, -, b3⟩ := luaXBlock_ok h1
      exact Or.inr ⟨b, luaBuild, b1, by rw [lua_enquote isPrint h1.1, hB, if_pos h1.1], b3.symm⟩
  · intro d hd
    rcases hread d hd with ⟨h1, -, -, h4⟩ | ⟨h1, -, h2, h3⟩ | ⟨h1, -, h3, -⟩
    · exact Or.inl ⟨h1, (hcase d hd (hcom d h1)).1, h4.ok⟩
    · obtain ⟨c1, c2, c3⟩ := hcase d hd (hord d h3)
      refine Or.inr (Or.inl ⟨h1, c1, ?_, ?_⟩)
      · rw [c3]; exact (LuaReadable.headOk h2).1
      · rw [c3]
        exact luaFree_items h2 h3
    · obtain ⟨b, b1, b2, b3⟩ := luaXBlock_ok h1
      refine Or.inr (Or.inr ⟨h1.notComment, h3, b, b1, b2, ?_⟩)
      unfold luaXBlock at b1
      rw [if_pos h1.1] at b1
      cases b1
      exact (luaHeads_vals h1).1
  · intro d hd
    rcases hread d hd with h1 | ⟨h1, h2, h3, h4⟩ | ⟨h1, h2, h3, h4⟩
    · exact Or.inl h1
    · refine Or.inr ⟨h1, h2, ?_⟩
      rw [(hcase d hd (hord d h4)).2.2]
      exact h3.headVals (LuaReadable.headOk h3).1
    · exact Or.inr ⟨h1.notComment, h2, (luaHeads_vals h1).2 h4⟩

/-- C67: a tree of comments, directives and Lua directives, built with the Lua builder with any indentation, tabs and header, is given back by `Parse` with the
Lua lexer: the code of every Lua block is the same, character for character. -/
theorem C67_tree_partial (isPrint : Char → Bool) (bo : BuildOptions) (cfg : Config) (env : Env) (fuel : Nat) (filename : Str) (o : ParseOptions) (data : FileData)
    (hindent : 0 ≤ bo.indent) (hext : bo.extBuilders = none) (hbuilders : bo.builders = [luaRegisterBuilder]) (hbuild : buildText isPrint cfg bo = some data.runes)
    (hread : LuaReadable isPrint cfg.parsed) (hapart : CommentsApart cfg.parsed) (hacc : Accepted needsQuote o [] cfg.parsed)
    (hperm : ∀ l, (env.mapOrder l).Perm l) (hfuel : 2 ≤ fuel) (hopen : env.openFile 0 filename = .ok data)
    (hcombine : o.combineConfigs = false) (hcomments : o.parseComments = true) (hlexers : o.lexers = luaRegisterLexer) :
    ∃ es, Parse env fuel filename o = .ok (okPayload [(filename, es)]) ∧ Same (headerDirs bo ++ cfg.parsed) es := by
  have hL : extLexersOf o.lexers = luaExt := by rw [hlexers]; rfl
  obtain ⟨h1, h2, h3⟩ := lua_parts hext hbuilders hread
  exact C67_external (hd := luaHeads isPrint) (xb := luaXBlock) isPrint bo cfg env fuel filename o data hindent hbuild (by rw [hL]; exact luaHash) h1 (by rw [hL]; exact h2) h3
    hapart hacc hperm hfuel hopen hcombine hcomments

/-! ## Examples -/

/-- A server with Lua code and a comment on the line of the location. -/
def exLuaTree : List Directive :=
  [blk c!"location" 1 [c!"/x y"] [{ dir c!"#" 1 [] with comment := some c!"c" }, dir c!"set_by_lua_block" 2 [c!"$x", c!" return '}' "], dir c!"content_by_lua_block" 3 [exLua]],
    dir c!"e" 3 []]

theorem exLuaTree_within {d : Directive} (h : Within d exLuaTree) : d = blk c!"location" 1 [c!"/x y"] [{ dir c!"#" 1 [] with comment := some c!"c" },
      dir c!"set_by_lua_block" 2 [c!"$x", c!" return '}' "], dir c!"content_by_lua_block" 3 [exLua]] ∨
    d = { dir c!"#" 1 [] with comment := some c!"c" } ∨ d = dir c!"set_by_lua_block" 2 [c!"$x", c!" return '}' "] ∨ d = dir c!"content_by_lua_block" 3 [exLua] ∨
    d = dir c!"e" 3 [] := by
  unfold exLuaTree at h
  cases h with
  | here h => simp at h; tauto
  | deep hm hb h =>
    simp at hm
    rcases hm with rfl | rfl
    · cases hb
      cases h with
      | here h => simp at h; tauto
      | deep hm hb h =>
        simp at hm
        rcases hm with rfl | rfl | rfl <;> cases hb
    · cases hb

theorem plainHead {isPrint : Char → Bool} (hcr : isPrint '\r' = false) {d : Directive} (hi : d.directive ≠ c!"if") (h : ∀ s ∈ d.directive :: d.args, PlainString isPrint s) :
    HeadReadable isPrint d.directive d.args :=
  ⟨fun s hs => plain_token isPrint (h s hs).1 hcr (h s hs).2.1 (h s hs).2.2, fun e => absurd e hi, fun e => absurd e hi, fun e => absurd e hi⟩

theorem exLuaTree_readable : LuaReadable exPrint exLuaTree := by
  intro d hd
  rcases exLuaTree_within hd with rfl | rfl | rfl | rfl | rfl
  · exact Or.inr (Or.inl ⟨by decide, rfl, plainHead rfl (by decide) (by unfold PlainString; decide), by unfold LuaFree NoLua; decide +kernel⟩)
  · exact Or.inl ⟨by decide, rfl, rfl, [.plain 'c'], rfl, by decide⟩
  · refine Or.inr (Or.inr ⟨⟨by decide, Or.inr ⟨rfl, c!"$x", c!" return '}' ", rfl, by decide, by decide, by decide, prefix_counts (by decide), by decide⟩⟩, rfl, rfl, ?_⟩)
    intro arg code e
    cases e
    decide
  · refine Or.inr (Or.inr ⟨⟨by decide, Or.inl ⟨by decide, exLua, rfl, exLua_ok⟩⟩, rfl, rfl, ?_⟩)
    intro arg code e
    cases e
  · exact Or.inr (Or.inl ⟨by decide, rfl, plainHead rfl (by decide) (by unfold PlainString; decide), by unfold LuaFree NoLua; decide +kernel⟩)

theorem exLuaTree_apart : CommentsApart exLuaTree := by
  rintro l (rfl | ⟨d, hd, hb⟩) a x y b e hx hy
  · have hall : ∀ z ∈ exLuaTree, ¬ IsComment z := by decide
    exact absurd hx (hall x (by rw [e]; simp))
  · rcases exLuaTree_within hd with rfl | rfl | rfl | rfl | rfl
    · cases hb
      rcases a with _ | ⟨z, a⟩
      · cases e; exact absurd hy (by decide)
      · have hall : ∀ w ∈ [dir c!"set_by_lua_block" 2 [c!"$x", c!" return '}' "], dir c!"content_by_lua_block" 3 [exLua]], ¬ IsComment w := by decide
        simp only [List.cons_append, List.cons.injEq] at e
        exact absurd hx (hall x (by rw [e.2]; simp))
    · cases hb
    · cases hb
    · cases hb
    · cases hb

/-- Options with the Lua lexer and without directives. -/
def exLuaFree : ParseOptions := { exFree with lexers := luaRegisterLexer }

theorem exLuaTree_accepted : Accepted needsQuote exLuaFree [] exLuaTree := by
  refine accepted_unknown rfl ?_ ?_
  · intro d hd _
    refine ⟨exFree_unknown _, by simp [exLuaFree, exFree], Or.inr ?_⟩
    rcases exLuaTree_within hd with rfl | rfl | rfl | rfl | rfl <;> decide
  · intro d hd _
    rcases exLuaTree_within hd with rfl | rfl | rfl | rfl | rfl <;> decide

/-- The build options of the example. -/
def exLuaBuild : BuildOptions := { indent := 2, header := true, builders := [luaRegisterBuilder] }

/-- The text of this tree. -/
def exLuaTreeText : Str := fullText exPrint exLuaBuild { file := c!"f", status := c!"ok", parsed := exLuaTree }

example : exLuaTreeText = header ++ c!"location \"/x y\" { #c\n  set_by_lua_block $x { return '}' }\n  content_by_lua_block {" ++ exLua ++ c!"}\n}\ne;" := by decide +kernel

example : ∃ es, Parse (exEnv [(c!"f", exLuaTreeText)]) 2 c!"f" exLuaFree = .ok (okPayload [(c!"f", es)]) ∧ Same (headerDirs exLuaBuild ++ exLuaTree) es :=
  C67_tree_partial exPrint exLuaBuild { file := c!"f", status := c!"ok", parsed := exLuaTree } _ 2 _ exLuaFree { runes := exLuaTreeText } (by decide) rfl rfl
    (by decide +kernel) exLuaTree_readable exLuaTree_apart exLuaTree_accepted (fun _ => List.Perm.refl _) (Nat.le_refl _) rfl rfl rfl rfl

/-- C67 is false of arguments that begin with the name of a Lua directive: after the quoted name the Lua lexer takes over at `content_by_lua_block`, and its error
token is read as an empty argument, so that `c` is lost without an error. -/
theorem C67_false_arg : ∃ ds text, (∀ d ∈ ds, d.block = none ∧ d.comment = none ∧ d.directive ∉ luaDirectiveNames ∧ ∀ s ∈ d.directive :: d.args, PlainString exPrint s) ∧
    buildText exPrint { file := c!"f", status := c!"ok", parsed := ds } { builders := [luaRegisterBuilder] } = some text ∧
    ∃ es, Parse (exEnv [(c!"f", text)]) 2 c!"f" exLuaFree = .ok (okPayload [(c!"f", es)]) ∧ ¬ Same ds es := by
  refine ⟨[dir c!"a b" 1 [c!"content_by_lua_block", c!"c"]], c!"\"a b\" content_by_lua_block c;", ?_, by decide +kernel,
    [dir c!"a b" 1 [c!"content_by_lua_block", []]], by decide +kernel, ?_⟩
  · unfold PlainString; decide +kernel
  · intro hs
    cases hs with
    | leaf _ h => cases h
    | node _ h => cases h

end Verif
