import Verif.Proofs.LexChunks
import Verif.Props.Lexer
import Verif.Proofs.WFDec
/-!
# C10: external lexers
-/
namespace Verif
open Spec ExtLex

/-! ## When no registered name is met -/

/-- C10: without registrations lexing is plain lexing. -/
theorem C10_none (s : Str) : lexWith (extLexersOf []) s = lex s := rfl

/-- A token no text has. -/
def poison : Tok := ⟨[], -1, false, none⟩

/-- Every registered lexer replaced by one that reads nothing and gives this token. -/
def poisoned (ext : ExtLexers) : ExtLexers := fun n => (ext n).map fun _ => fun _ _ => ([poison], 0)

theorem step_eq (ext : ExtLexers) (st : LexSt) (c : Char) (cs : List Char) (hc : c ≠ '\r') (hb : ¬ (c = '\\' ∧ st.esc = false))
    (hx : NoLook ext st c) :
    loopE ext st (c :: cs) = continE ext cs (lexSwitch { bump st c with esc := false } (if st.esc then ['\\', c] else [c])) := by
  by_cases he : st.esc = true
  · rw [loopE_esc st c cs he hc hx, he]; rfl
  · have he : st.esc = false := by simpa using he
    rw [loopE_plain st c cs he hc (fun e => hb ⟨e, he⟩) hx, he]; rfl

theorem loopE_cr (ext : ExtLexers) (st : LexSt) (cs : List Char) : loopE ext st ('\r' :: cs) = loopE ext st cs := by
  simp [loopE, tokenizeLoop]

theorem poison_look {ext : ExtLexers} {st : LexSt} {c : Char} (cs : List Char) (hc : c ≠ '\r') (hb : ¬ (c = '\\' ∧ st.esc = false))
    (h : ¬ NoLook ext st c) : poison ∈ loopE (poisoned ext) st (c :: cs) := by
  unfold NoLook at h
  simp only [Classical.not_imp] at h
  obtain ⟨h1, h2, h3⟩ := h
  obtain ⟨lx, h3⟩ := Option.ne_none_iff_exists'.mp h3
  have e1 : (c == '\r') = false := by simpa using hc
  have e2 : (c == '\\' && !(bump st c).esc) = false := by
    rw [bump_esc]
    by_cases hh : c = '\\'
    · have : st.esc = true := by
        by_contra he
        exact hb ⟨hh, by simpa using he⟩
      simp [this]
    · simp [hh]
  have e3 : (decide ((bump st c).token.length > 0) && (bump st c).nextTokenIsDirective) = true := by
    rw [bump_token, bump_dir, h2]
    simp [List.length_pos_iff, h1]
  have e4 : poisoned ext (bump st c).token = some (fun _ _ => ([poison], 0)) := by
    rw [bump_token, poisoned, h3]; rfl
  rw [loopE, tokenizeLoop]
  simp only [bump_def, e1, e2, Bool.false_eq_true, if_false]
  split
  · rename_i lx' hlx
    have hl : some (fun _ _ => ([poison], 0)) = some lx' := (((if_pos e3).trans e4).symm).trans hlx
    have hl := Option.some.inj hl
    subst hl
    refine iteInduction (motive := fun l => poison ∈ l) ?_ ?_
    · intro _; simp
    · intro _
      split <;> simp
  · rename_i hlx
    have hl : some (fun _ _ => ([poison], 0)) = none := (((if_pos e3).trans e4).symm).trans hlx
    cases hl

theorem no_poison {ext : ExtLexers} (s : List Char) : ∀ st : LexSt, poison ∉ loopE (poisoned ext) st (s.filter (· ≠ '\r')) → loopE ext st s = loop st s := by
  induction s with
  | nil => intro st _; rw [loopE_nil, loop_nil]
  | cons c cs ih =>
    intro st h
    by_cases hc : c = '\r'
    · subst hc
      rw [loopE_cr, loop_cr]
      exact ih st (by simpa using h)
    · rw [List.filter_cons_of_pos (by simpa using hc)] at h
      by_cases hb : c = '\\' ∧ st.esc = false
      · obtain ⟨rfl, he⟩ := hb
        rw [loopE_backslash st _ he] at h ⊢
        rw [loop_backslash st _ he]
        exact ih _ h
      · have hx : NoLook ext st c := by
          by_contra hx
          exact h (poison_look _ hc hb hx)
        have hx1 : NoLook (poisoned ext) st c := by
          intro h1 h2
          rw [poisoned, hx h1 h2]; rfl
        have hx2 : NoLook noExt st c := fun _ _ => rfl
        rw [step_eq ext st c cs hc hb hx, show loop st (c :: cs) = loopE noExt st (c :: cs) from rfl, step_eq noExt st c cs hc hb hx2]
        rw [step_eq _ st c _ hc hb hx1] at h
        rcases hh : lexSwitch { bump st c with esc := false } (if st.esc then ['\\', c] else [c]) with ⟨out, o⟩
        rw [hh] at h
        cases o with
        | none => rfl
        | some st' =>
          simp only [continE, List.mem_append, not_or] at h ⊢
          rw [ih st' h.2]

theorem ready_init : Ready ({} : LexSt) 1 1 0 false := by
  constructor <;> try constructor
  all_goals rfl

/-- C10: if nothing in directive position begins with a registered name, lexing with external lexers is plain lexing. -/
theorem C10_unregistered {ext : ExtLexers} {s : Str} {items : List Item} {d : Str} (hs : s.filter (· ≠ '\r') = unlex items ++ d) (hw : WF items)
    (hd : Dangling d) (hr : Unregistered ext (dirNames true items)) : lexWith ext s = lex s := by
  refine no_poison s {} ?_
  have hr' : Unregistered (poisoned ext) (dirNames true items) := by
    intro v hv n h1 h2
    rw [poisoned, hr v hv n h1 h2]; rfl
  rw [hs, ExtLex.loop_items (E := dirAfter true items) (tail := []) items.length items (Nat.le_refl _) ready_init (by simpa using hw) (.eof d hd) rfl hr',
    specThen_EOF, show specToks 1 1 0 false false items = toksOf items from rfl, ← lex_items hw hd]
  intro hp
  have := ((C05_lines_ordered _).2 _ hp).1
  revert this
  decide

/-! ## When a registered name is met -/

theorem skip_drop (ext : ExtLexers) (st : LexSt) (cs : List Char) : ∀ n, tokenizeLoop ext n st cs = loopE ext st (cs.drop n) := by
  induction cs with
  | nil => intro n; cases n <;> simp [tokenizeLoop]
  | cons c cs ih =>
    intro n
    cases n with
    | zero => rfl
    | succ n => rw [tokenizeLoop, ih, List.drop_succ_cons]

/-- A registered name at its end: the lexer of the name reads what follows the blank, and lexing goes on where it stopped. -/
theorem look_some {ext : ExtLexers} {st : LexSt} {p : WordPos} {name : Str} {line start : Int} {depth : Nat} {lx : ExtLexer} (h : InWord st p name line start depth)
    (hf : flag st = true) (hl : ext name = some lx) {c : Char} (hs : isSpaceRune c = true) (hc : c ≠ '\r') (rest : List Char) :
    ∃ st', loopE ext st (c :: rest) = ⟨name, start, false, none⟩ :: ((lx rest (line + nls [c])).1 ++ loopE ext st' (rest.drop (lx rest (line + nls [c])).2)) ∧
      Ready st' (line + nls [c] + nls (rest.take (lx rest (line + nls [c])).2)) start depth false ∧ flag st' = true := by
  have hb : c ≠ '\\' := by intro e; subst e; revert hs; decide
  have hcore := bump_core h.toCore c
  have f1 : (bump st c).nextTokenIsDirective = true := by rw [bump_dir, show st.nextTokenIsDirective = true from hf]; rfl
  have t1 : (bump st c).token = name := by rw [bump_token, h.token]
  have s1 : (bump st c).lexState ≠ .inQuote := by rw [bump_lexState, h.state]; cases p <;> simp
  have e1 : (c == '\r') = false := by simpa using hc
  have e2 : (c == '\\') = false := by simpa using hb
  have e3 : (decide ((bump st c).token.length > 0) && (bump st c).nextTokenIsDirective) = true := by
    rw [f1, t1]
    simp [List.length_pos_iff, h.tokNe]
  have e4 : ext (bump st c).token = some lx := by rw [t1, hl]
  have e5 : (bump st c).tokenLine = line + nls [c] := hcore.tokenLine
  have e6 : (bump st c).esc = false := hcore.esc
  rw [← e5]
  refine ⟨{ (bump st c).reset with tokenLine := (bump st c).tokenLine + countNL (rest.take (lx rest (bump st c).tokenLine).2), esc := false }, ?_, ?_, ?_⟩
  · rw [loopE, tokenizeLoop]
    simp only [bump_def, e1, e2, e6, Bool.false_and, Bool.false_eq_true, if_false]
    split
    · rename_i lx' hlx
      have hl : some lx = some lx' := (((if_pos e3).trans e4).symm).trans hlx
      have hl := Option.some.inj hl
      subst hl
      refine (if_neg ?_).trans ?_
      · simp [s1]
      · rw [lexSwitch]
        simp only [LexSt.reset, isSpace_single, hs, Bool.not_true, Bool.false_eq_true, if_false, LexSt.emitTok]
        rw [skip_drop, t1, show (bump st c).tokenStartLine = start from hcore.startLine]
        have : ((bump st c).lexState == LexState.inQuote) = false := by simpa using s1
        rw [this]
        simp
    · rename_i hlx
      have hl : some lx = none := (((if_pos e3).trans e4).symm).trans hlx
      cases hl
  · constructor
    · constructor
      · rfl
      · exact hcore.startLine
      · exact hcore.depth
      · exact hcore.dup
      · rfl
    · rfl
    · rfl
  · exact f1

theorem textOf_plain (s : Str) : textOf (s.map .plain) = s := by
  induction s with
  | nil => rfl
  | cons c cs ih =>
    rw [List.map_cons, textOf, List.flatMap_cons, ← textOf, ih]; rfl

theorem plainName_wf {n : Str} (h : PlainName n) : (∀ u ∈ n.map U.plain, u.wf) ∧ (∃ u us', n.map U.plain = u :: us' ∧ startsWord u) ∧ '\n' ∉ n ∧
    (∀ u ∈ n.map U.plain, u ≠ .plain '{') ∧ (∀ line, wordLine line (n.map .plain) = line) := by
  obtain ⟨h1, c, r, rfl, h2, h3, h4⟩ := h
  refine ⟨?_, ⟨_, _, rfl, ?_⟩, ?_, ?_, fun line => rfl⟩
  · intro u hu
    obtain ⟨x, hx, rfl⟩ := List.mem_map.mp hu
    refine ⟨(h1 x hx).2.2, fun e => (h1 x hx).1 ?_⟩
    subst e; decide
  · exact ⟨(h1 c (by simp)).1, (h1 c (by simp)).2.1, h2, h3, h4⟩
  · intro hn
    exact (h1 _ hn).1 (by decide)
  · intro u hu e
    obtain ⟨x, hx, rfl⟩ := List.mem_map.mp hu
    cases e
    exact (h1 _ hx).2.1 (by decide)

theorem chunksText_cons (c : Chunk) (cs : List Chunk) (last : List Item) (d : Str) :
    chunksText (c :: cs) last d = unlex c.items ++ (c.name ++ (c.sep :: (c.body ++ chunksText cs last d))) := by
  simp [chunksText, Chunk.text]

/-- The lexer on chunks, from a state between tokens. -/
theorem loop_chunks {ext : ExtLexers} {last : List Item} {d : Str} (hd : Dangling d) (cs : List Chunk) : ∀ {st line start depth dup}, Ready st line start depth dup →
    Fits ext last d (flag st) cs → loopE ext st (chunksText cs last d) = extToks ext last d cs line start depth dup := by
  induction cs with
  | nil =>
    intro st line start depth dup h hf
    obtain ⟨h1, h2⟩ := hf
    rw [extToks, ← specThen_EOF]
    exact ExtLex.loop_items (E := dirAfter (flag st) last) (tail := []) last.length last (Nat.le_refl _) h (by simpa using h1) (.eof d hd) rfl h2
  | cons c cs ih =>
    intro st line start depth dup h hf
    obtain ⟨h1, h2, h3, h4, h5, h6, h7, ⟨lx, h8, h9⟩, h10⟩ := hf
    rw [chunksText_cons, extToks]
    refine ExtLex.loop_items (E := true) (tail := [.word (c.name.map .plain)]) c.items.length c.items (Nat.le_refl _) h h1 (.word _ _ _ _ ?_) h3 h4
    intro st1 line1 start1 depth1 dup1 r1 f1
    obtain ⟨w1, w2, w3, w4, w5⟩ := plainName_wf h2
    have hrun : ∃ p, WordPos.run (.out false) (c.name.map .plain) = some p := by
      obtain ⟨hh, -⟩ := h2
      clear w1 w2 w3 w4 w5 h1 h5 h8 h9 h3 h4
      generalize false = b
      generalize c.name = n at hh
      induction n generalizing b with
      | nil => exact ⟨_, rfl⟩
      | cons x xs ihx =>
        obtain ⟨g1, g2, -⟩ := hh x (by simp)
        have : x ≠ '{' := by rintro rfl; exact g2 (by decide)
        rw [List.map_cons, WordPos.run, WordPos.next]
        simp only [g1, g2, this, false_and, if_false]
        exact ihx _ (fun y hy => hh y (by simp [hy]))
    obtain ⟨p, hp⟩ := hrun
    obtain ⟨st2, e2, r2, -, f2⟩ := ExtLex.word_all (ext := ext) true r1 w1 (by
      intro _ n g1 g2 g3
      rw [textOf_plain] at g2 g3
      exact h5 n g1 g2 g3) w2 hp (fun _ => rfl) (fun _ => rfl) (c.sep :: (c.body ++ chunksText cs last d))
    rw [textOf_plain] at e2 r2
    have hnl : nls c.name = 0 := by
      unfold nls
      exact_mod_cast List.count_eq_zero.mpr w3
    rw [hnl, Int.add_zero, w5] at r2
    obtain ⟨st3, e3, r3, f3⟩ := look_some r2 (f2 w4 f1) h8 h6 h7 (c.body ++ chunksText cs last d)
    rw [h9, List.take_left] at r3
    rw [h9, List.drop_left] at e3
    rw [e2, e3, h8, ih r3 (by rw [f3]; exact h10)]

/-- C10: at a registered name in directive position the name token is followed by the tokens of the external lexer, and lexing goes on after what that
lexer read, with the line feeds of that counted. -/
theorem C10_chunks (ext : ExtLexers) (cs : List Chunk) (last : List Item) (d : Str) (hd : Dangling d) (h : Fits ext last d true cs) :
    lexWith ext (chunksText cs last d) = extToks ext last d cs 1 1 0 false :=
  loop_chunks hd cs ready_init h

/-! ## Registrations -/

/-- What a list of registrations binds a name to: the last registration with that name. -/
theorem C10_last_wins (regs : List RegisterLexer) (n : Str) :
    extLexersOf regs n = ((regs.filter (fun r => decide (n ∈ r.stringTokens))).getLast?).map (·.l) := by
  have hap : ∀ (r : RegisterLexer) (m : ExtLexers), r.apply m n = if n ∈ r.stringTokens then some r.l else m n := by
    intro r
    unfold RegisterLexer.apply
    generalize r.stringTokens = l
    induction l with
    | nil => intro m; simp
    | cons x xs ih =>
      intro m
      rw [List.foldl_cons, ih]
      by_cases h1 : n ∈ xs
      · simp [h1]
      · by_cases h2 : n = x <;> simp [h1, h2]
  unfold extLexersOf
  have key : ∀ m : ExtLexers, regs.foldl (fun m o => o.apply m) m n =
      (((regs.filter (fun r => decide (n ∈ r.stringTokens))).getLast?).map (·.l)).or (m n) := by
    induction regs with
    | nil => intro m; rfl
    | cons r rs ih =>
      intro m
      rw [List.foldl_cons, ih, hap]
      by_cases h : n ∈ r.stringTokens
      · rw [List.filter_cons_of_pos (by simpa using h), if_pos h, List.getLast?_cons]
        cases (rs.filter (fun r => decide (n ∈ r.stringTokens))).getLast? <;> rfl
      · rw [List.filter_cons_of_neg (by simpa using h), if_neg h]
  rw [key]
  cases ((regs.filter (fun r => decide (n ∈ r.stringTokens))).getLast?).map (·.l) <;> rfl


/-! ## Examples -/

/-- An external lexer that reads up to and including an exclamation mark and gives one token. -/
def exReader : ExtLexer := fun rest line => ([⟨rest.takeWhile (· ≠ '!'), line, true, none⟩], (rest.takeWhile (· ≠ '!')).length + 1)

/-- It is registered for `x`. -/
def exReg : ExtLexers := extLexersOf [⟨exReader, [c!"y", c!"x"]⟩, ⟨fun _ _ => ([], 0), [c!"y"]⟩]

theorem exReg_none {n : Str} (h1 : n ≠ c!"x") (h2 : n ≠ c!"y") : exReg n = none := by
  rw [exReg, C10_last_wins]
  simp [h1, h2]

/-- Later registrations replace earlier ones. -/
example : (exReg c!"x" = some exReader) ∧ (∀ lx, exReg c!"y" = some lx → lx c!"a!" 1 = ([], 0)) := by
  constructor
  · rfl
  · rintro lx h
    cases h
    rfl

/-- The items of `a x;`, with `x` an argument. -/
def exArg : List Item := [.word [.plain 'a'], .space ' ', .word [.plain 'x'], .special ';']

/-- An argument that is a registered name is a plain argument. -/
example : lexWith exReg c!"a x;" = lex c!"a x;" := by
  refine C10_unregistered (items := exArg) (d := []) (by decide +kernel) (by decide +kernel) (by decide +kernel) ?_
  intro v hv n h1 h2
  have : v = c!"a" := by simpa [exArg, dirNames, textOf, U.text] using hv
  subst this
  have : n = c!"a" := by
    rcases n with _ | ⟨c, n⟩
    · exact absurd rfl h1
    · obtain ⟨rfl, h⟩ := List.cons_prefix_cons.mp h2
      rw [List.prefix_nil.mp h]
  subst this
  exact exReg_none (by decide) (by decide)

/-- The text `a;⏎x b{⏎!c;` in chunks. -/
def exChunks : List Chunk := [⟨[.word [.plain 'a'], .special ';', .space '\n'], c!"x", ' ', c!"b{\n!"⟩]

/-- After it. -/
def exLast : List Item := [.word [.plain 'c'], .special ';']

theorem prefix_one {n : Str} {c : Char} (h1 : n ≠ []) (h2 : n <+: [c]) : n = [c] := by
  rcases n with _ | ⟨x, n⟩
  · exact absurd rfl h1
  · obtain ⟨rfl, h⟩ := List.cons_prefix_cons.mp h2
    rw [List.prefix_nil.mp h]

theorem exChunks_fits : Fits exReg exLast [] true exChunks := by
  refine ⟨by decide +kernel, ⟨by decide +kernel, 'x', [], rfl, by decide, by decide, by decide⟩, by decide +kernel, ?_, ?_, by decide, by decide, ⟨exReader, rfl, fun _ => rfl⟩,
    by decide +kernel, ?_⟩
  · intro v hv n h1 h2
    have : v = c!"a" := by simpa [dirNames, textOf, U.text] using hv
    subst this
    rw [prefix_one h1 h2]
    exact exReg_none (by decide) (by decide)
  · intro n h1 h2 h3
    exact absurd (prefix_one h1 h2) h3
  · intro v hv n h1 h2
    have : v = c!"c" := by simpa [exLast, dirNames, textOf, U.text] using hv
    subst this
    rw [prefix_one h1 h2]
    exact exReg_none (by decide) (by decide)

/-- The external lexer reads `b{⏎!`; the line feed in it is counted. -/
example : lexWith exReg c!"a;\nx b{\n!c;" =
    [⟨c!"a", 1, false, none⟩, ⟨c!";", 1, false, none⟩, ⟨c!"x", 2, false, none⟩, ⟨c!"b{\n", 2, true, none⟩, ⟨c!"c", 3, false, none⟩, ⟨c!";", 3, false, none⟩] := by
  have := C10_chunks exReg exChunks exLast [] (by decide +kernel) exChunks_fits
  rw [show chunksText exChunks exLast [] = c!"a;\nx b{\n!c;" from by decide +kernel] at this
  rw [this]
  decide +kernel

/-! ## What is false -/

/-- C10 is false of the code if directive position means beginning a directive and equal means equal: an argument directly before a line feed, an
argument after a quoted name, and the beginning of a longer name are also taken for registered names. -/
theorem C10_false_position : ∃ ext items, WF items ∧ (∀ v ∈ firstNames true items, ext v = none) ∧ lexWith ext (unlex items) ≠ lex (unlex items) :=
  ⟨exReg, [.word [.plain 'a'], .space ' ', .word [.plain 'x'], .space '\n', .special ';'], by decide +kernel,
    fun v hv => exReg_none (by rintro rfl; revert hv; decide +kernel) (by rintro rfl; revert hv; decide +kernel), by decide +kernel⟩

/-- The same after a quoted name. -/
theorem C10_false_quoted : ∃ ext items, WF items ∧ '\n' ∉ unlex items ∧ (∀ v ∈ firstNames true items, ext v = none) ∧ lexWith ext (unlex items) ≠ lex (unlex items) :=
  ⟨exReg, [.quoted '"' [.plain 'a'] true, .space ' ', .word [.plain 'x'], .space ' ', .special ';'], by decide +kernel, by decide +kernel,
    fun v hv => exReg_none (by rintro rfl; revert hv; decide +kernel) (by rintro rfl; revert hv; decide +kernel), by decide +kernel⟩

/-- The same for a longer name. -/
theorem C10_false_prefix : ∃ ext items, WF items ∧ '\n' ∉ unlex items ∧ (∀ q us b, .quoted q us b ∉ items) ∧ (∀ v ∈ firstNames true items, ext v = none) ∧
    lexWith ext (unlex items) ≠ lex (unlex items) :=
  ⟨exReg, [.word [.plain 'x', .plain 'a'], .special ';'], by decide +kernel, by decide +kernel, by simp,
    fun v hv => exReg_none (by rintro rfl; revert hv; decide +kernel) (by rintro rfl; revert hv; decide +kernel), by decide +kernel⟩

/-- C10 is false of the code if what follows the name is not a blank: the external lexer does not see the first character. -/
theorem C10_false_glued : ∃ (lx : ExtLexer) (name rest : Str), (∀ r l, lx r l = ([⟨r, l, true, none⟩], r.length)) ∧
    lexWith (extLexersOf [⟨lx, [name]⟩]) (name ++ rest) ≠ [⟨name, 1, false, none⟩, ⟨rest, 1, true, none⟩] :=
  ⟨fun r l => ([⟨r, l, true, none⟩], r.length), c!"x", c!"{}", fun _ _ => rfl, by decide +kernel⟩

end Verif
