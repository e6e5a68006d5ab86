import Verif.Spec.CarriageReturns
import Verif.Props.Lua
/-!
# C10 and C11 with carriage returns
-/
namespace Verif
open Spec ExtLex

/-- Every registered lexer replaced by one that reads nothing and gives so many tokens. -/
def flooded (ext : ExtLexers) (n : Nat) : ExtLexers := fun m => (ext m).map fun _ => fun _ _ => (List.replicate n poison, 0)

theorem flood_look {ext : ExtLexers} {n : Nat} {st : LexSt} {c : Char} (cs : List Char) (hc : c ≠ '\r') (hb : ¬ (c = '\\' ∧ st.esc = false))
    (h : ¬ NoLook ext st c) : n ≤ (loopE (flooded ext n) st (c :: cs)).length := by
  unfold NoLook at h
  simp only [Classical.not_imp] at h
  obtain ⟨h1, h2, h3⟩ := h
  obtain ⟨lx, h3⟩ := Option.ne_none_iff_exists'.mp h3
  have e1 : (c == '\r') = false := by simpa using hc
  have e2 : (c == '\\' && !(bump st c).esc) = false := by
    rw [bump_esc]
    by_cases hh : c = '\\'
    · have : st.esc = true := by
        by_contra he
        exact hb ⟨hh, by simpa using he⟩
      simp [this]
    · simp [hh]
  have e3 : (decide ((bump st c).token.length > 0) && (bump st c).nextTokenIsDirective) = true := by
    rw [bump_token, bump_dir, h2]
    simp [List.length_pos_iff, h1]
  have e4 : flooded ext n (bump st c).token = some (fun _ _ => (List.replicate n poison, 0)) := by
    rw [bump_token, flooded, h3]; rfl
  rw [loopE, tokenizeLoop]
  simp only [bump_def, e1, e2, Bool.false_eq_true, if_false]
  split
  · rename_i lx' hlx
    have hl : some (fun _ _ => (List.replicate n poison, 0)) = some lx' := (((if_pos e3).trans e4).symm).trans hlx
    have hl := Option.some.inj hl
    subst hl
    refine iteInduction (motive := fun l : List Tok => n ≤ l.length) ?_ ?_
    · intro _; simp; omega
    · intro _
      split <;> simp <;> omega
  · rename_i hlx
    have hl : some (fun _ _ => (List.replicate n poison, 0)) = none := (((if_pos e3).trans e4).symm).trans hlx
    cases hl

/-- Where no registered name is met, carriage returns do not matter. -/
theorem no_flood {ext : ExtLexers} {n : Nat} (s : List Char) : ∀ (st : LexSt) (rest : List Char), (loopE (flooded ext n) st (s.filter (· ≠ '\r'))).length < n →
    loopE ext st (s ++ rest) = loopE ext st (s.filter (· ≠ '\r') ++ rest) := by
  induction s with
  | nil => intros; rfl
  | cons c cs ih =>
    intro st rest h
    by_cases hc : c = '\r'
    · subst hc
      rw [List.cons_append, loopE_cr]
      exact ih st rest (by simpa using h)
    · rw [List.filter_cons_of_pos (by simpa using hc)] at h ⊢
      rw [List.cons_append, List.cons_append]
      by_cases hb : c = '\\' ∧ st.esc = false
      · obtain ⟨rfl, he⟩ := hb
        rw [loopE_backslash st _ he] at h ⊢
        rw [loopE_backslash st _ he]
        exact ih _ rest h
      · have hx : NoLook ext st c := by
          by_contra hx
          exact absurd (flood_look _ hc hb hx) (Nat.not_le.mpr h)
        have hx1 : NoLook (flooded ext n) st c := by
          intro h1 h2
          rw [flooded, hx h1 h2]; rfl
        rw [step_eq ext st c _ hc hb hx, step_eq ext st c _ hc hb hx]
        rw [step_eq _ st c _ hc hb hx1] at h
        rcases hh : lexSwitch { bump st c with esc := false } (if st.esc then ['\\', c] else [c]) with ⟨out, o⟩
        rw [hh] at h
        cases o with
        | none => rfl
        | some st' =>
          simp only [continE, List.length_append] at h ⊢
          rw [ih st' rest (by omega)]

theorem flooded_unregistered {ext : ExtLexers} {vs : List Str} (n : Nat) (h : Unregistered ext vs) : Unregistered (flooded ext n) vs := by
  intro v hv m h1 h2
  rw [flooded, h v hv m h1 h2]; rfl

theorem plainName_run {n : Str} (h : PlainName n) : ∃ p, WordPos.run (.out false) (n.map .plain) = some p := by
  obtain ⟨hh, -⟩ := h
  generalize false = b
  induction n generalizing b with
  | nil => exact ⟨_, rfl⟩
  | cons x xs ihx =>
    obtain ⟨g1, g2, -⟩ := hh x (by simp)
    have : x ≠ '{' := by rintro rfl; exact g2 (by decide)
    rw [List.map_cons, WordPos.run, WordPos.next]
    simp only [g1, g2, this, false_and, if_false]
    exact ihx (fun y hy => hh y (by simp [hy])) _

/-- Reading a plain name. -/
theorem name_all {ext : ExtLexers} {name : Str} (h2 : PlainName name) (h5 : ∀ n, n ≠ [] → n <+: name → n ≠ name → ext n = none)
    {st line start depth dup} (h : Ready st line start depth dup) (hf : flag st = true) (rest : List Char) :
    ∃ st' p, loopE ext st (name ++ rest) = loopE ext st' rest ∧ InWord st' p name line line depth ∧ flag st' = true := by
  obtain ⟨w1, w2, w3, w4, w5⟩ := plainName_wf h2
  obtain ⟨p, hp⟩ := plainName_run h2
  obtain ⟨st2, e2, r2, -, f2⟩ := ExtLex.word_all (ext := ext) true h w1 (by
    intro _ n g1 g2 g3
    rw [textOf_plain] at g2 g3
    exact h5 n g1 g2 g3) w2 hp (fun _ => rfl) (fun _ => rfl) rest
  rw [textOf_plain] at e2 r2
  have hnl : nls name = 0 := by
    unfold nls
    exact_mod_cast List.count_eq_zero.mpr w3
  rw [hnl, Int.add_zero, w5] at r2
  exact ⟨st2, p, e2, r2, f2 w4 hf⟩

/-- The end of the text after a name. -/
def nameEnd (name : Str) (line : Int) (depth : Nat) : List Tok :=
  ⟨name, line, false, none⟩ :: if depth > 0 then [⟨[], line, false, some (lexError c!"unexpected end of file, expecting \"}\"" line)⟩] else []

theorem finish_name {st : LexSt} {p : WordPos} {name : Str} {line : Int} {depth : Nat} (h : InWord st p name line line depth) : lexFinish st = nameEnd name line depth := by
  obtain ⟨⟨h1, h2, h3, h4, h5⟩, h6, h7, h8, -, -⟩ := h
  have hq : (st.lexState == .inQuote) = false := by rw [h6]; cases p <;> rfl
  have hl' : name.length > 0 := List.length_pos_iff.mpr h8
  unfold lexFinish nameEnd
  simp only [LexSt.reset, LexSt.emitTok, h1, h2, h3, h7, hq, if_pos hl']
  by_cases hd : depth > 0
  · have : (depth : Int) > 0 := by omega
    simp [hd]
  · simp [hd]

/-- The raw text of items and a name is read as the text without carriage returns. -/
theorem raw_name {ext : ExtLexers} {items : List Item} {name raw : Str} (hraw : raw.filter (· ≠ '\r') = unlex items ++ name)
    (h1 : WF (items ++ [.word (name.map .plain)])) (h2 : PlainName name) {st line start depth dup} (h : Ready st line start depth dup)
    (h3 : dirAfter (flag st) items = true) (h4 : Unregistered ext (dirNames (flag st) items)) (h5 : ∀ n, n ≠ [] → n <+: name → n ≠ name → ext n = none)
    (rest : List Char) : loopE ext st (raw ++ rest) = loopE ext st (unlex items ++ (name ++ rest)) := by
  have key : ∀ n, loopE (flooded ext n) st (unlex items ++ name) = specThen (fun line _ depth _ => nameEnd name line depth) line start depth dup false items := by
    intro n
    refine ExtLex.loop_items (E := true) (tail := [.word (name.map .plain)]) items.length items (Nat.le_refl _) h h1 (.word _ _ _ _ ?_) h3 (flooded_unregistered n h4)
    intro st1 line1 start1 depth1 dup1 r1 f1
    obtain ⟨st2, p, e2, r2, -⟩ := name_all (ext := flooded ext n) h2 (fun m g1 g2 g3 => by rw [flooded, h5 m g1 g2 g3]; rfl) r1 f1 []
    rw [List.append_nil] at e2
    rw [e2, loopE_nil, finish_name r2]
  rw [no_flood (n := (specThen (fun line _ depth _ => nameEnd name line depth) line start depth dup false items).length + 1) raw st rest, hraw, List.append_assoc]
  rw [hraw, key]
  exact Nat.lt_succ_self _

/-- The raw text of the items at the end is read as the text without carriage returns. -/
theorem raw_last {ext : ExtLexers} {last : List Item} {d raw : Str} (hraw : raw.filter (· ≠ '\r') = unlex last ++ d) (hd : Dangling d)
    (h1 : WF last) {st line start depth dup} (h : Ready st line start depth dup) (h2 : Unregistered ext (dirNames (flag st) last)) :
    loopE ext st raw = loopE ext st (unlex last ++ d) := by
  have key : ∀ n, loopE (flooded ext n) st (unlex last ++ d) = specThen specEOF line start depth dup false last := fun n =>
    ExtLex.loop_items (E := dirAfter (flag st) last) (tail := []) last.length last (Nat.le_refl _) h (by simpa using h1) (.eof d hd) rfl (flooded_unregistered n h2)
  have := no_flood (ext := ext) (n := (specThen specEOF line start depth dup false last).length + 1) raw st [] (by rw [hraw, key]; exact Nat.lt_succ_self _)
  rw [List.append_nil, List.append_nil, hraw] at this
  exact this

theorem rawText_cons (c : RawChunk) (cs : List RawChunk) (rawLast : Str) :
    rawText (c :: cs) rawLast = c.raw ++ (c.chunk.sep :: (c.chunk.body ++ rawText cs rawLast)) := by
  simp [rawText]

/-- The lexer on chunks with carriage returns, from a state between tokens. -/
theorem loop_raw {ext : ExtLexers} {last : List Item} {d rawLast : Str} (hd : Dangling d) (cs : List RawChunk) : ∀ {st line start depth dup}, Ready st line start depth dup →
    FitsRaw ext last rawLast d (flag st) cs → loopE ext st (rawText cs rawLast) = rawToks ext last rawLast cs line start depth dup := by
  induction cs with
  | nil =>
    intro st line start depth dup h hf
    obtain ⟨h0, h1, h2⟩ := hf
    rw [rawToks, ← specThen_EOF]
    show loopE ext st rawLast = _
    rw [raw_last h0 hd h1 h h2]
    exact ExtLex.loop_items (E := dirAfter (flag st) last) (tail := []) last.length last (Nat.le_refl _) h (by simpa using h1) (.eof d hd) rfl h2
  | cons c cs ih =>
    intro st line start depth dup h hf
    obtain ⟨h0, h1, h2, h3, h4, h5, h6, h7, ⟨lx, h8, h9⟩, h10⟩ := hf
    rw [rawText_cons, rawToks, raw_name h0 h1 h2 h h3 h4 h5]
    refine ExtLex.loop_items (E := true) (tail := [.word (c.chunk.name.map .plain)]) c.chunk.items.length c.chunk.items (Nat.le_refl _) h h1 (.word _ _ _ _ ?_) h3 h4
    intro st1 line1 start1 depth1 dup1 r1 f1
    obtain ⟨st2, p, e2, r2, f2⟩ := name_all h2 h5 r1 f1 (c.chunk.sep :: (c.chunk.body ++ rawText cs rawLast))
    obtain ⟨st3, e3, r3, f3⟩ := look_some r2 f2 h8 h6 h7 (c.chunk.body ++ rawText cs rawLast)
    rw [h9, List.take_left] at r3
    rw [h9, List.drop_left] at e3
    rw [e2, e3, h8, ih r3 (by rw [f3]; exact h10)]

/-- C10 with carriage returns: anywhere between the blocks of external lexers (also within words and names) they do not matter. -/
theorem C10_chunks_returns (ext : ExtLexers) (cs : List RawChunk) (last : List Item) (rawLast d : Str) (hd : Dangling d) (h : FitsRaw ext last rawLast d true cs) :
    lexWith ext (rawText cs rawLast) = rawToks ext last rawLast cs 1 1 0 false :=
  loop_raw hd cs ready_init h

theorem fitsLua_raw {last : List Item} {rawLast d : Str} (hlast : rawLast.filter (· ≠ '\r') = unlex last ++ d) (bs : List RawLua) : ∀ {dir : Bool},
    FitsLua last dir (bs.map RawLua.block) → OnlyReturns bs → FitsRaw luaExt last rawLast d dir (bs.map fun b => ⟨b.block.chunk, b.raw⟩) := by
  induction bs with
  | nil => intro dir h _; exact ⟨hlast, h.1, noLua_unregistered h.2⟩
  | cons b bs ih =>
    intro dir h ho
    have hf := fitsLua_fits (d := d) ((b :: bs).map RawLua.block) h
    obtain ⟨g1, g2, g3, g4, g5, g6, g7, -, -⟩ := hf
    obtain ⟨-, -, -, h4, h5⟩ := h
    refine ⟨ho b (by simp), g1, g2, g3, g4, g5, g6, g7, ⟨luaLex b.block.name, ?_, ?_⟩, ih h5 fun x hx => ho x (by simp [hx])⟩
    · show luaExt b.block.name = _
      rw [luaExt_eq, if_pos h4.1]
    · intro line
      show (luaLex b.block.name (b.block.body ++ _) line).2 = b.block.body.length
      rw [C11_lex b.block h4]

theorem rawToks_lua {last : List Item} {rawLast : Str} (bs : List RawLua) : ∀ {dir : Bool}, FitsLua last dir (bs.map RawLua.block) → ∀ line start depth dup,
    rawToks luaExt last rawLast (bs.map fun b => ⟨b.block.chunk, b.raw⟩) line start depth dup = luaToks last (bs.map RawLua.block) line start depth dup := by
  induction bs with
  | nil => intros; rfl
  | cons b bs ih =>
    intro dir h line start depth dup
    obtain ⟨h1, h2, h3, h4, h5⟩ := h
    rw [List.map_cons, List.map_cons, rawToks, luaToks]
    congr 1
    funext line start depth dup
    have e : luaExt b.block.chunk.name = some (luaLex b.block.name) := by
      show luaExt b.block.name = _
      rw [luaExt_eq, if_pos h4.1]
    rw [e]
    simp only []
    rw [show b.block.chunk.body = b.block.body from rfl, C11_lex b.block h4, ih h5]
    rfl

/-- C11 with carriage returns (as in a file with CRLF line ends): outside the Lua blocks they do not matter, and in the code they stay. -/
theorem C11_text_returns (bs : List RawLua) (last : List Item) (rawLast d : Str) (hd : Dangling d) (hlast : rawLast.filter (· ≠ '\r') = unlex last ++ d)
    (h : FitsLua last true (bs.map RawLua.block)) (ho : OnlyReturns bs) :
    lexWith luaExt (rawLuaText bs rawLast) = luaToks last (bs.map RawLua.block) 1 1 0 false := by
  have e : rawLuaText bs rawLast = rawText (bs.map fun b => ⟨b.block.chunk, b.raw⟩) rawLast := by
    simp [rawLuaText, rawText, List.flatMap_map, LuaBlock.chunk]
  rw [e, C10_chunks_returns luaExt _ last rawLast d hd (fitsLua_raw hlast bs h ho), rawToks_lua bs h]

/-- The text `a{⏎access_by_lua_block⏎{x⏎}b;}` with CRLF line ends and one more carriage return after `b`. -/
example : lexWith luaExt c!"a{\r\naccess_by_lua_block\r\n{x\r\n}b\r;\r\n}" =
    [⟨c!"a", 1, false, none⟩, ⟨c!"{", 1, false, none⟩, ⟨c!"access_by_lua_block", 2, false, none⟩, ⟨c!"x\r\n", 4, true, none⟩, ⟨c!";", 4, false, none⟩,
      ⟨c!"b", 4, false, none⟩, ⟨c!";", 4, false, none⟩, ⟨c!"}", 5, false, none⟩] := by
  have h : FitsLua [.word [.plain 'b'], .special ';', .space '\n', .special '}'] true
      [⟨[.word [.plain 'a'], .special '{', .space '\n'], c!"access_by_lua_block", '\n', none, [], c!"x\r\n"⟩] := by
    refine ⟨by decide +kernel, by decide +kernel, by unfold NoLua; decide +kernel, ⟨by decide, by decide, by decide, by simp, ⟨by decide, prefix_counts (by decide), by decide⟩, by decide⟩,
      by decide +kernel, by unfold NoLua; decide +kernel⟩
  have := C11_text_returns
    [⟨⟨[.word [.plain 'a'], .special '{', .space '\n'], c!"access_by_lua_block", '\n', none, [], c!"x\r\n"⟩, c!"a{\r\naccess_by_lua_block\r"⟩]
    _ c!"b\r;\r\n}" [] (Or.inl rfl) (by decide +kernel) h (by unfold OnlyReturns; decide +kernel)
  rw [show rawLuaText _ _ = c!"a{\r\naccess_by_lua_block\r\n{x\r\n}b\r;\r\n}" from by decide +kernel] at this
  rw [this]
  decide +kernel

/-- The chunks of the example of C10 with carriage returns, also before and after the name. -/
example : lexWith exReg c!"a;\r\n\rx\r b{\n!c\r;\r" =
    [⟨c!"a", 1, false, none⟩, ⟨c!";", 1, false, none⟩, ⟨c!"x", 2, false, none⟩, ⟨c!"b{\n", 2, true, none⟩, ⟨c!"c", 3, false, none⟩, ⟨c!";", 3, false, none⟩] := by
  have h : FitsRaw exReg exLast c!"c\r;\r" [] true [⟨⟨[.word [.plain 'a'], .special ';', .space '\n'], c!"x", ' ', c!"b{\n!"⟩, c!"a;\r\n\rx\r"⟩] := by
    obtain ⟨h1, h2, h3, h4, h5, h6, h7, -, h9, h10⟩ := exChunks_fits
    exact ⟨by decide +kernel, h1, h2, h3, h4, h5, h6, h7, ⟨exReader, rfl, fun _ => rfl⟩, by decide +kernel, h9, h10⟩
  have := C10_chunks_returns exReg _ exLast _ [] (by decide +kernel) h
  rw [show rawText _ _ = c!"a;\r\n\rx\r b{\n!c\r;\r" from by decide +kernel] at this
  rw [this]
  decide +kernel

end Verif
