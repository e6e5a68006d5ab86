import Verif.Props.Concat
import Verif.Props.LuaTree
import Verif.Proofs.ConcatExt
/-!
# The concatenation of files, with external lexers
-/
namespace Verif
open Spec

/-! ## The Lua lexer -/

theorem scanLine_add (line n : Int) (c : Char) : scanLine (line + n) c = scanLine line c + n := by
  unfold scanLine
  split <;> omega

theorem luaBody_shift (n : Int) (cs : List Char) : ∀ (d : Int) (q : Bool) (qt tok : Str) (line : Int) (k : Nat),
    (∀ t ∈ (luaBody d q qt tok line k cs).1, t.error = none) →
    luaBody d q qt tok (line + n) k cs = ((luaBody d q qt tok line k cs).1.map (laterTok n), (luaBody d q qt tok line k cs).2) := by
  induction cs with
  | nil => intro d q qt tok line k _; simp [luaBody]
  | cons c cs ih =>
    intro d q qt tok line k h
    rw [luaBody] at h
    rw [luaBody, luaBody]
    simp only [scanLine_add] at h ⊢
    split
    · rename_i h1
      rw [if_pos h1] at h
      exact ih _ _ _ _ _ _ h
    · rename_i h1
      rw [if_neg h1] at h
      split
      · rename_i h2
        rw [if_pos h2] at h
        split
        · rename_i h3
          rw [if_pos h3] at h
          simp at h
        · rename_i h3
          rw [if_neg h3] at h
          split
          · simp [laterTok]
          · rename_i h4
            rw [if_neg h4] at h
            exact ih _ _ _ _ _ _ h
      · rename_i h2
        rw [if_neg h2] at h
        split
        · rename_i h3
          rw [if_pos h3] at h
          split
          · rename_i h4; rw [if_pos h4] at h; exact ih _ _ _ _ _ _ h
          · rename_i h4
            rw [if_neg h4] at h
            split
            · rename_i h5; rw [if_pos h5] at h; exact ih _ _ _ _ _ _ h
            · rename_i h5; rw [if_neg h5] at h; exact ih _ _ _ _ _ _ h
        · rename_i h3
          rw [if_neg h3] at h
          split
          · rename_i h4; rw [if_pos h4] at h; exact ih _ _ _ _ _ _ h
          · rename_i h4
            rw [if_neg h4] at h
            split
            · simp [laterTok]
            · rename_i h5; rw [if_neg h5] at h; exact ih _ _ _ _ _ _ h

theorem luaStart_shift (n : Int) (cs : List Char) : ∀ (line : Int) (k : Nat), (∀ t ∈ (luaStart line k cs).1, t.error = none) →
    luaStart (line + n) k cs = ((luaStart line k cs).1.map (laterTok n), (luaStart line k cs).2) := by
  induction cs with
  | nil => intro line k _; simp [luaStart]
  | cons c cs ih =>
    intro line k h
    rw [luaStart] at h
    rw [luaStart, luaStart]
    simp only [scanLine_add] at h ⊢
    split
    · rename_i h1
      rw [if_pos h1] at h
      split
      · rename_i h2
        rw [if_pos h2] at h
        simp at h
      · rename_i h2
        rw [if_neg h2] at h
        exact luaBody_shift n cs _ _ _ _ _ _ h
    · rename_i h1
      rw [if_neg h1] at h
      exact ih _ _ h

theorem luaSetArg_shift (n : Int) (cs : List Char) : ∀ (arg : Str) (line : Int) (k : Nat), (∀ t ∈ (luaSetArg arg line k cs).1, t.error = none) →
    luaSetArg arg (line + n) k cs = ((luaSetArg arg line k cs).1.map (laterTok n), (luaSetArg arg line k cs).2) := by
  induction cs with
  | nil => intro arg line k _; simp [luaSetArg]
  | cons c cs ih =>
    intro arg line k h
    rw [luaSetArg] at h
    rw [luaSetArg, luaSetArg]
    simp only [scanLine_add] at h ⊢
    split
    · rename_i h1
      rw [if_pos h1] at h
      split
      · rename_i h2
        rw [if_pos h2] at h
        rw [luaStart_shift n cs _ _ (fun t ht => h t (List.mem_cons_of_mem _ ht))]
        simp [laterTok]
      · rename_i h2
        rw [if_neg h2] at h
        exact ih _ _ _ h
    · rename_i h1
      rw [if_neg h1] at h
      exact ih _ _ _ h

theorem lua_shifts : Shifts luaExt := by
  intro name lx h cs line n he
  rw [luaExt_eq] at h
  split at h
  · cases h
    unfold luaLex at he ⊢
    split
    · rename_i h1
      rw [if_pos h1] at he
      exact luaSetArg_shift n cs _ _ _ he
    · rename_i h1
      rw [if_neg h1] at he
      exact luaStart_shift n cs _ _ he
  · cases h

/-- A function that reads the text up to a closing brace, and no further. -/
def ReadsTo (f : Nat → List Char → List Tok × Nat) (k : Nat) (cs : List Char) : Prop :=
  (∃ pre post, cs = pre ++ '}' :: post ∧ (f k cs).2 = k + pre.length + 1) ∧ ∀ b, f k (cs ++ b) = f k cs

theorem luaBody_readsTo (cs : List Char) : ∀ (d : Int) (q : Bool) (qt tok : Str) (line : Int) (k : Nat),
    (∃ t ∈ (luaBody d q qt tok line k cs).1, t.quoted = true) → ReadsTo (luaBody d q qt tok line) k cs := by
  induction cs with
  | nil => intro d q qt tok line k h; simp [luaBody] at h
  | cons c cs ih =>
    intro d q qt tok line k h
    have step : ∀ (d' : Int) (q' : Bool) (qt' tok' : Str) (line' : Int), (∀ cs', luaBody d q qt tok line k (c :: cs') = luaBody d' q' qt' tok' line' (k + 1) cs') →
        ReadsTo (luaBody d q qt tok line) k (c :: cs) := by
      intro d' q' qt' tok' line' hcs
      rw [hcs] at h
      obtain ⟨⟨pre, post, e1, e2⟩, e3⟩ := ih d' q' qt' tok' line' (k + 1) h
      refine ⟨⟨c :: pre, post, by rw [e1]; rfl, ?_⟩, fun b => ?_⟩
      · rw [hcs, e2, List.length_cons]; omega
      · rw [List.cons_append, hcs, hcs, e3]
    by_cases h1 : (c == '{' && !q) = true
    · exact step _ _ _ _ _ fun cs' => by rw [luaBody]; simp only; rw [if_pos h1]
    · by_cases h2 : (c == '}' && !q) = true
      · have hcc : c = '}' := by simp at h2; exact h2.1
        by_cases h3 : d - 1 < 0
        · rw [luaBody] at h
          simp only at h
          rw [if_neg h1, if_pos h2, if_pos h3] at h
          simp at h
        · by_cases h4 : (d - 1 == 0) = true
          · have e : ∀ cs', luaBody d q qt tok line k (c :: cs') =
                ([{ value := tok, line := scanLine line c, quoted := true }, { value := c!";", line := scanLine line c }], k + 1) := by
              intro cs'
              rw [luaBody]; simp only; rw [if_neg h1, if_pos h2, if_neg h3, if_pos h4]
            refine ⟨⟨[], cs, by rw [hcc]; rfl, by rw [e]; rfl⟩, fun b => ?_⟩
            rw [List.cons_append, e, e]
          · exact step _ _ _ _ _ fun cs' => by rw [luaBody]; simp only; rw [if_neg h1, if_pos h2, if_neg h3, if_neg h4]
      · by_cases h3 : (c == '"' || c == '\'') = true
        · by_cases h4 : (!q) = true
          · exact step _ _ _ _ _ fun cs' => by rw [luaBody]; simp only; rw [if_neg h1, if_neg h2, if_pos h3, if_pos h4]
          · by_cases h5 : ([c] == qt) = true
            · exact step _ _ _ _ _ fun cs' => by rw [luaBody]; simp only; rw [if_neg h1, if_neg h2, if_pos h3, if_neg h4, if_pos h5]
            · exact step _ _ _ _ _ fun cs' => by rw [luaBody]; simp only; rw [if_neg h1, if_neg h2, if_pos h3, if_neg h4, if_neg h5]
        · by_cases h4 : (isSpace [c] && d == 0) = true
          · exact step _ _ _ _ _ fun cs' => by rw [luaBody]; simp only; rw [if_neg h1, if_neg h2, if_neg h3, if_pos h4]
          · by_cases h5 : (d == 0) = true
            · rw [luaBody] at h
              simp only at h
              rw [if_neg h1, if_neg h2, if_neg h3, if_neg h4, if_pos h5] at h
              simp at h
            · exact step _ _ _ _ _ fun cs' => by rw [luaBody]; simp only; rw [if_neg h1, if_neg h2, if_neg h3, if_neg h4, if_neg h5]

theorem ReadsTo.cons {f g : Nat → List Char → List Tok × Nat} {k : Nat} {c : Char} {cs : List Char} (h : ReadsTo g (k + 1) cs)
    (h1 : ∀ cs', (f k (c :: cs')).2 = (g (k + 1) cs').2) (h2 : ∀ cs' cs'', g (k + 1) cs' = g (k + 1) cs'' → f k (c :: cs') = f k (c :: cs'')) :
    ReadsTo f k (c :: cs) := by
  obtain ⟨⟨pre, post, e1, e2⟩, e3⟩ := h
  refine ⟨⟨c :: pre, post, by rw [e1]; rfl, ?_⟩, fun b => ?_⟩
  · rw [h1, e2, List.length_cons]; omega
  · rw [List.cons_append]; exact h2 _ _ (e3 b)

theorem luaStart_readsTo (cs : List Char) : ∀ (line : Int) (k : Nat), (∃ t ∈ (luaStart line k cs).1, t.quoted = true) → ReadsTo (luaStart line) k cs := by
  induction cs with
  | nil => intro line k h; simp [luaStart] at h
  | cons c cs ih =>
    intro line k h
    by_cases h1 : (!isSpace [c]) = true
    · by_cases h2 : (c != '{') = true
      · rw [luaStart] at h
        rw [if_pos h1, if_pos h2] at h
        simp at h
      · have e : ∀ cs', luaStart line k (c :: cs') = luaBody 1 false [] [] (scanLine line c) (k + 1) cs' := by
          intro cs'; rw [luaStart]; rw [if_pos h1, if_neg h2]
        rw [e] at h
        exact (luaBody_readsTo cs _ _ _ _ _ _ h).cons (fun cs' => by rw [e]) (fun cs' cs'' k' => by rw [e, e, k'])
    · have e : ∀ cs', luaStart line k (c :: cs') = luaStart (scanLine line c) (k + 1) cs' := by
        intro cs'; rw [luaStart]; rw [if_neg h1]
      rw [e] at h
      exact (ih _ _ h).cons (fun cs' => by rw [e]) (fun cs' cs'' k' => by rw [e, e, k'])

theorem luaSetArg_readsTo (cs : List Char) : ∀ (arg : Str) (line : Int) (k : Nat), (∃ t ∈ (luaSetArg arg line k cs).1, t.quoted = true) →
    ReadsTo (luaSetArg arg line) k cs := by
  induction cs with
  | nil => intro arg line k h; simp [luaSetArg] at h
  | cons c cs ih =>
    intro arg line k h
    by_cases h1 : isSpace [c] = true
    · by_cases h2 : (arg != []) = true
      · have e : ∀ cs', luaSetArg arg line k (c :: cs') = ({ value := arg, line := scanLine line c } :: (luaStart (scanLine line c) (k + 1) cs').1,
            (luaStart (scanLine line c) (k + 1) cs').2) := by
          intro cs'; rw [luaSetArg]; simp only; rw [if_pos h1, if_pos h2]
        rw [e] at h
        simp only [List.mem_cons, exists_eq_or_imp, Bool.false_eq_true, false_or] at h
        exact (luaStart_readsTo cs _ _ h).cons (fun cs' => by rw [e]) (fun cs' cs'' k' => by rw [e, e, k'])
      · have e : ∀ cs', luaSetArg arg line k (c :: cs') = luaSetArg arg (scanLine line c) (k + 1) cs' := by
          intro cs'; rw [luaSetArg]; simp only; rw [if_pos h1, if_neg h2]
        rw [e] at h
        exact (ih _ _ _ h).cons (fun cs' => by rw [e]) (fun cs' cs'' k' => by rw [e, e, k'])
    · have e : ∀ cs', luaSetArg arg line k (c :: cs') = luaSetArg (arg ++ [c]) (scanLine line c) (k + 1) cs' := by
        intro cs'; rw [luaSetArg]; simp only; rw [if_neg h1]
      rw [e] at h
      exact (ih _ _ _ h).cons (fun cs' => by rw [e]) (fun cs' cs'' k' => by rw [e, e, k'])

theorem extCalls_mem {ext : ExtLexers} {call : ExtLexer × List Char × Int} (cs : List Char) : ∀ (k : Nat) (st : LexSt), call ∈ extCalls ext k st cs →
    (∃ name, ext name = some call.1) ∧ call.2.1 <:+ cs := by
  induction cs with
  | nil => intro k st h; cases k <;> simp [extCalls] at h
  | cons c cs ih =>
    intro k st h
    have up : ∀ k st, call ∈ extCalls ext k st cs → (∃ name, ext name = some call.1) ∧ call.2.1 <:+ c :: cs :=
      fun k st h => ⟨(ih k st h).1, (ih k st h).2.trans (List.suffix_cons c cs)⟩
    cases k with
    | succ k => rw [extCalls] at h; exact up _ _ h
    | zero =>
      rw [extCalls] at h
      split at h
      · split at h
        · simp at h
        · exact up _ _ h
      · rename_i lx hl
        rcases List.mem_cons.mp h with rfl | h
        · exact ⟨⟨st.token, (lookAt_some hl).2.2.2⟩, List.suffix_cons c cs⟩
        · split at h
          · simp at h
          · exact up _ _ h

/-- The Lua lexer ends before the end of whole lines if it sends the code of the block. -/
theorem lua_endsBefore {a : Str} (ha : WholeLines a) {call : ExtLexer × List Char × Int} (hc : call ∈ extCalls luaExt 0 {} a)
    (hq : ∃ t ∈ (call.1 call.2.1 call.2.2).1, t.quoted = true) : EndsBefore call := by
  obtain ⟨⟨name, hn⟩, hsuf⟩ := extCalls_mem a 0 {} hc
  obtain ⟨lx, rest, line⟩ := call
  simp only at hn hsuf hq
  rw [luaExt_eq] at hn
  split at hn
  · cases hn
    have key : ∃ f, (∀ cs, luaLex name cs line = f 0 cs) ∧ ReadsTo f 0 rest := by
      by_cases h : (name == setByLuaBlock) = true
      · refine ⟨luaSetArg [] line, fun cs => by rw [luaLex, if_pos h], luaSetArg_readsTo rest _ _ _ ?_⟩
        rw [luaLex, if_pos h] at hq
        exact hq
      · refine ⟨luaStart line, fun cs => by rw [luaLex, if_neg h], luaStart_readsTo rest _ _ ?_⟩
        rw [luaLex, if_neg h] at hq
        exact hq
    obtain ⟨f, hf, ⟨pre, post, e1, e2⟩, e3⟩ := key
    refine ⟨?_, fun b => ?_⟩
    · show (luaLex name rest line).2 < rest.length
      rw [hf, e2, e1]
      cases post with
      | cons x post => simp only [List.length_append, List.length_cons]; omega
      | nil =>
        exfalso
        rcases ha with rfl | ⟨s', rfl⟩
        · rw [List.suffix_nil.mp hsuf] at e1
          simp at e1
        · obtain ⟨p, hp⟩ := hsuf
          rw [e1, ← List.append_assoc] at hp
          obtain ⟨-, h⟩ := List.append_inj' hp rfl
          simp at h
    · show luaLex name (rest ++ b) line = luaLex name rest line
      rw [hf, hf, e3]
  · cases hn

/-! ## Texts one after the other -/

/-- C75 with external lexers (tokens).  The external lexers may use the line only for the lines of their tokens, and no name may start with `#`.  Every call of one
of them while the first text is read must end before the last line feed, whatever comes after the text. -/
theorem C75_external {ext : ExtLexers} (hsh : Shifts ext) (hx : ∀ s, ext ('#' :: s) = none) {a b : Str} (ha : WholeLines a)
    (he : ∀ t ∈ lexWith ext a, t.error = none) (hs : Shape (lexWith ext a)) (hc : ∀ call ∈ extCalls ext 0 {} a, EndsBefore call)
    (hb : ∀ t ∈ lexWith ext b, t.error = none) (hw : StartsWithWord (lexWith ext b)) :
    lexWith ext (a ++ b) = lexWith ext a ++ (lexWith ext b).map (laterTok (a.count '\n')) := lexWith_append hsh hx ha he hs hc hb hw

/-- C75 for Lua (tokens): every Lua block of the first text is closed. -/
theorem C75_lua {a b : Str} (ha : WholeLines a) (he : ∀ t ∈ lexWith luaExt a, t.error = none) (hs : Shape (lexWith luaExt a))
    (hc : ∀ call ∈ extCalls luaExt 0 {} a, ∃ t ∈ (call.1 call.2.1 call.2.2).1, t.quoted = true)
    (hb : ∀ t ∈ lexWith luaExt b, t.error = none) (hw : StartsWithWord (lexWith luaExt b)) :
    lexWith luaExt (a ++ b) = lexWith luaExt a ++ (lexWith luaExt b).map (laterTok (a.count '\n')) :=
  C75_external lua_shifts luaHash ha he hs (fun call h => lua_endsBefore ha h (hc call h)) hb hw

/-- C75 with external lexers.  If two files are parsed without an error, and the first is whole lines, the file with the text of the first and then the text of
the second is parsed without an error, and its tree is the one of the first and then the one of the second, on later lines. -/
theorem C75_concat_external {env : Env} {fuel : Nat} {o : ParseOptions} {f g h : Str} {da db dc : FileData} (hf : 2 ≤ fuel) (ho1 : OneFile env f o da)
    (ho2 : OneFile env g o db) (hh : env.openFile 0 h = .ok dc) (hsh : Shifts (extLexersOf o.lexers)) (hx : ∀ s, extLexersOf o.lexers ('#' :: s) = none)
    (hcl : ∀ call ∈ extCalls (extLexersOf o.lexers) 0 {} da.runes, EndsBefore call)
    (hc : dc.runes = da.runes ++ db.runes) (hw : WholeLines da.runes) (hfa : Formed o da) (hfb : Formed o db) {ds ds' : List Directive}
    (h1 : Parse env fuel f o = .ok (okPayload [(f, ds)])) (h2 : Parse env fuel g o = .ok (okPayload [(g, ds')])) :
    Parse env fuel h o = .ok (okPayload [(h, ds ++ laterList (da.runes.count '\n') ds')]) := by
  obtain ⟨e1, c1⟩ := C70_sound_tree ho1 hf hfa h1
  obtain ⟨e2, c2⟩ := C70_sound_tree ho2 hf hfb h2
  have e : fileToks o dc = fileToks o da ++ (fileToks o db).map (laterTok (da.runes.count '\n')) := by
    show lexWith _ dc.runes = _
    rw [hc]
    exact C75_external hsh hx hw e1 c1.recover.shape hcl e2 c2.recover.shape.starts
  obtain ⟨e3, c3, k⟩ := concat_recover_of e e1 c1.recover e2 c2.recover
  exact C70_complete (concat_oneFile ho1 ho2 hh k) hf e3 (c3.conf rfl)

/-- C75 for Lua: options with the Lua lexers. -/
theorem C75_concat_lua {env : Env} {fuel : Nat} {o : ParseOptions} {f g h : Str} {da db dc : FileData} (hf : 2 ≤ fuel) (ho1 : OneFile env f o da)
    (ho2 : OneFile env g o db) (hh : env.openFile 0 h = .ok dc) (hl : o.lexers = luaRegisterLexer)
    (hcl : ∀ call ∈ extCalls luaExt 0 {} da.runes, ∃ t ∈ (call.1 call.2.1 call.2.2).1, t.quoted = true)
    (hc : dc.runes = da.runes ++ db.runes) (hw : WholeLines da.runes) (hfa : Formed o da) (hfb : Formed o db) {ds ds' : List Directive}
    (h1 : Parse env fuel f o = .ok (okPayload [(f, ds)])) (h2 : Parse env fuel g o = .ok (okPayload [(g, ds')])) :
    Parse env fuel h o = .ok (okPayload [(h, ds ++ laterList (da.runes.count '\n') ds')]) := by
  have hL : extLexersOf o.lexers = luaExt := by rw [hl]; rfl
  exact C75_concat_external hf ho1 ho2 hh (by rw [hL]; exact lua_shifts) (by rw [hL]; exact luaHash)
    (by rw [hL]; exact fun call h => lua_endsBefore hw h (hcl call h)) hc hw hfa hfb h1 h2

/-- C75 with errors and external lexers: wrong statements of the kinds of C74. -/
theorem C75_errors_external {env : Env} {fuel : Nat} {o : ParseOptions} {f g h : Str} {da db dc : FileData} (hf : 2 ≤ fuel) (ho1 : OneFile env f o da)
    (ho2 : OneFile env g o db) (hh : env.openFile 0 h = .ok dc) (hsh : Shifts (extLexersOf o.lexers)) (hx : ∀ s, extLexersOf o.lexers ('#' :: s) = none)
    (hcl : ∀ call ∈ extCalls (extLexersOf o.lexers) 0 {} da.runes, EndsBefore call) (hs : o.stopParsingOnError = false)
    (hc : dc.runes = da.runes ++ db.runes) (hw : WholeLines da.runes) {ds ds' : List Directive} {ls ls' : List Int}
    (he1 : ∀ t ∈ fileToks o da, t.error = none) (h1 : Recover (rulesOf o) [] ds ls (fileToks o da))
    (he2 : ∀ t ∈ fileToks o db, t.error = none) (h2 : Recover (rulesOf o) [] ds' ls' (fileToks o db)) :
    ∃ p, Parse env fuel h o = .ok p ∧
      p.config.map (fun c => (c.file, c.parsed)) = [(h, ds ++ laterList (da.runes.count '\n') ds')] ∧
      p.errors.map (fun e => (e.file, e.line)) = (ls ++ ls'.map (· + (da.runes.count '\n' : Int))).map (fun l => (h, some l)) := by
  have e : fileToks o dc = fileToks o da ++ (fileToks o db).map (laterTok (da.runes.count '\n')) := by
    show lexWith _ dc.runes = _
    rw [hc]
    exact C75_external hsh hx hw he1 h1.shape hcl he2 h2.shape.starts
  obtain ⟨e3, c3, k⟩ := concat_recover_of e he1 h1 he2 h2
  obtain ⟨p, p1, p2, p3, -⟩ := C74_partial (concat_oneFile ho1 ho2 hh k) hf hs e3 c3
  refine ⟨p, p1, ?_, p3⟩
  have := congrArg (List.map fun x : Str × Str × List Directive => (x.1, x.2.2)) p2
  simpa using this

/-! ### Examples, and where it is false -/

/-- The first file, with a Lua block over two lines. -/
def exLuaA : Str := c!"content_by_lua_block {a\n}\n# c\n"

/-- The second file. -/
def exLuaB : Str := c!"set_by_lua_block $x {b}\nuser c;"

/-- The theorem for these files. -/
example : Parse (exEnv [(c!"/a", exLuaA), (c!"/b", exLuaB), (c!"/c", exLuaA ++ exLuaB)]) 2 c!"/c" exLuaFree =
    .ok (okPayload [(c!"/c", [dir c!"content_by_lua_block" 1 [c!"a\n"], { dir c!"#" 3 [] with comment := some c!" c" }] ++
      laterList 3 [dir c!"set_by_lua_block" 1 [c!"$x", c!"b"], dir c!"user" 2 [c!"c"]])]) :=
  C75_concat_lua (f := c!"/a") (g := c!"/b") (da := { runes := exLuaA }) (db := { runes := exLuaB }) (dc := { runes := exLuaA ++ exLuaB }) (by decide)
    ⟨fun l => List.Perm.refl l, rfl, Or.inr (by decide +kernel), rfl⟩ ⟨fun l => List.Perm.refl l, rfl, Or.inr (by decide +kernel), rfl⟩ rfl rfl
    (by
      have h : (extCalls luaExt 0 {} exLuaA).map (fun call => (call.1 call.2.1 call.2.2).1) = [[⟨c!"a\n", 2, true, none⟩, ⟨c!";", 2, false, none⟩]] := by
        decide +kernel
      intro call hc
      have := List.mem_map_of_mem (f := fun call : ExtLexer × List Char × Int => (call.1 call.2.1 call.2.2).1) hc
      rw [h, List.mem_singleton] at this
      exact ⟨⟨c!"a\n", 2, true, none⟩, by rw [this]; exact List.mem_cons_self, rfl⟩)
    rfl (Or.inr ⟨c!"content_by_lua_block {a\n}\n# c", by decide⟩)
    (Or.inl ⟨by decide +kernel, by
      have hl : fileToks exLuaFree { runes := exLuaA } = [⟨c!"content_by_lua_block", 1, false, none⟩, ⟨c!"a\n", 2, true, none⟩, ⟨c!";", 2, false, none⟩,
        ⟨c!"# c", 3, false, none⟩] := by decide +kernel
      rw [hl]
      exact .simple (mid := [⟨c!"a\n", 2, true, none⟩]) (exWord (by decide)) (.word (wordTok_iff.mpr (by decide)) .nil) ⟨rfl, rfl⟩
        (.comment (text := c!" c") ⟨rfl, rfl⟩ .nil)⟩)
    (Or.inl ⟨by decide +kernel, by
      have hl : fileToks exLuaFree { runes := exLuaB } = [⟨c!"set_by_lua_block", 1, false, none⟩, ⟨c!"$x", 1, false, none⟩, ⟨c!"b", 1, true, none⟩,
        ⟨c!";", 1, false, none⟩, ⟨c!"user", 2, false, none⟩, ⟨c!"c", 2, false, none⟩, ⟨c!";", 2, false, none⟩] := by decide +kernel
      rw [hl]
      exact .simple (mid := [⟨c!"$x", 1, false, none⟩, ⟨c!"b", 1, true, none⟩]) (exWord (by decide))
        (.word (exWord (by decide)) (.word (wordTok_iff.mpr (by decide)) .nil)) ⟨rfl, rfl⟩
        (.simple (mid := [⟨c!"c", 2, false, none⟩]) (exWord (by decide)) (.word (exWord (by decide)) .nil) ⟨rfl, rfl⟩ .nil)⟩)
    (by decide +kernel) (by decide +kernel)

/-- It does not hold where the first file has a Lua directive without a block: the Lua lexer looks for the block in the second file, its error becomes an empty
argument, and the first letter of the second file is lost; there is no error. -/
theorem C75_false_lua : ∃ (env : Env) (a b : Str), WholeLines a ∧
    Parse env 2 c!"/a" exLuaFree = .ok (okPayload [(c!"/a", [dir c!"content_by_lua_block" 1 []])]) ∧
    Parse env 2 c!"/b" exLuaFree = .ok (okPayload [(c!"/b", [dir c!"user" 1 [c!"b"]])]) ∧
    Parse env 2 c!"/c" exLuaFree = .ok (okPayload [(c!"/c", [dir c!"content_by_lua_block" 1 [[]], dir c!"ser" 2 [c!"b"]])]) ∧
    env.openFile 0 c!"/a" = .ok { runes := a } ∧ env.openFile 0 c!"/b" = .ok { runes := b } ∧ env.openFile 0 c!"/c" = .ok { runes := a ++ b } :=
  ⟨exEnv [(c!"/a", c!"content_by_lua_block;\n"), (c!"/b", c!"user b;"), (c!"/c", c!"content_by_lua_block;\nuser b;")], c!"content_by_lua_block;\n", c!"user b;",
    Or.inr ⟨c!"content_by_lua_block;", by decide⟩, by decide +kernel, by decide +kernel, by decide +kernel, rfl, rfl, rfl⟩

end Verif
