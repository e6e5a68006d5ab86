import Verif.Proofs.Concat
import Verif.Props.Recovery
import Verif.Props.Project
/-!
# C75: the concatenation of files is parsed to the concatenation of their trees
-/
namespace Verif
open Spec

/-! ## Statements one after the other -/

/-- Statements, then statements. -/
theorem Spec.Recover.append {r : Rules} {ctx : List Str} {ds ds' : List Directive} {ls ls' : List Int} {toks toks' : List Tok}
    (h : Recover r ctx ds ls toks) (h' : Recover r ctx ds' ls' toks') : Recover r ctx (ds ++ ds') (ls ++ ls') (toks ++ toks') := by
  induction h with
  | nil => exact h'
  | comment h1 h2 _ ih => exact .comment h1 h2 (ih h')
  | skip h1 h2 _ ih => exact .skip h1 h2 (ih h')
  | param h1 h2 h3 h4 h5 _ ih => simpa using Recover.param h1 h2 h3 h4 h5 (ih h')
  | wrongParam h1 h2 h3 h4 h5 _ ih => simpa using Recover.wrongParam h1 h2 h3 h4 h5 (ih h')
  | wrongParamBlock h1 h2 h3 h4 h5 h6 _ ih => simpa using Recover.wrongParamBlock h1 h2 h3 h4 h5 h6 (ih h')
  | ignored h1 h2 h3 h4 h5 _ ih => simpa using Recover.ignored h1 h2 h3 h4 h5 (ih h')
  | ignoredBlock h1 h2 h3 h4 h5 h6 h7 _ ih => simpa using Recover.ignoredBlock h1 h2 h3 h4 h5 h6 h7 (ih h')
  | simple h1 h2 h3 h4 h5 h6 h7 h8 _ ih => simpa using Recover.simple h1 h2 h3 h4 h5 h6 h7 h8 (ih h')
  | wrong h1 h2 h3 h4 h5 h6 h7 _ ih => simpa using Recover.wrong h1 h2 h3 h4 h5 h6 h7 (ih h')
  | block h1 h2 h3 h4 h5 h6 h7 h8 hb h9 _ _ ih => simpa using Recover.block h1 h2 h3 h4 h5 h6 h7 h8 hb h9 (ih h')
  | wrongBlock h1 h2 h3 h4 h5 h6 h7 h8 _ ih => simpa using Recover.wrongBlock h1 h2 h3 h4 h5 h6 h7 h8 (ih h')

theorem Spec.Words.later {mid : List Tok} {args texts : List Str} (h : Words mid args texts) (n : Int) : Words (mid.map (laterTok n)) args texts := by
  induction h with
  | nil => exact .nil
  | @word t mid args texts ht _ ih => exact .word (t := laterTok n t) ht ih
  | @comment t text mid args texts ht _ ih => exact .comment (t := laterTok n t) ht ih

theorem Spec.Shape.later {toks : List Tok} (h : Shape toks) (n : Int) : Shape (toks.map (laterTok n)) := by
  induction h with
  | nil => exact .nil
  | @comment t text toks ht _ ih => exact .comment (t := laterTok n t) ht ih
  | @simple t mid args texts semi toks h1 h2 h3 _ ih =>
    simpa using Shape.simple (t := laterTok n t) (semi := laterTok n semi) h1 (h2.later n) h3 ih
  | @block t mid args texts opening inner closing toks h1 h2 h3 _ h5 _ ih1 ih2 =>
    simpa using Shape.block (t := laterTok n t) (opening := laterTok n opening) (closing := laterTok n closing) h1 (h2.later n) h3 ih1 h5 ih2

theorem laterList_append (n : Int) (a b : List Directive) : laterList n (a ++ b) = laterList n a ++ laterList n b := by
  induction a with
  | nil => rfl
  | cons d a ih => simp [laterList, ih]

theorem laterList_comments (n line : Int) (b : Bool) (texts : List Str) :
    laterList n (if b then commentsAt line texts else []) = if b then commentsAt (line + n) texts else [] := by
  cases b
  · rfl
  · simp only [if_true]
    induction texts with
    | nil => rfl
    | cons t texts ih =>
      show later n _ :: laterList n (commentsAt line texts) = _ :: commentsAt (line + n) texts
      rw [ih]; rfl

/-- The same statements, some lines later. -/
theorem Spec.Recover.later {r : Rules} {ctx : List Str} {ds : List Directive} {ls : List Int} {toks : List Tok} (h : Recover r ctx ds ls toks) (n : Int) :
    Recover r ctx (laterList n ds) (ls.map (· + n)) (toks.map (laterTok n)) := by
  induction h with
  | nil => exact .nil
  | @comment ctx t text ds ls toks h1 h2 _ ih => exact .comment (t := laterTok n t) h1 h2 ih
  | @skip ctx t text ds ls toks h1 h2 _ ih => exact .skip (t := laterTok n t) h1 h2 ih
  | @param ctx m t mid args texts semi ds ls toks h1 h2 h3 h4 h5 _ ih =>
    simpa [laterList, Spec.later, laterOpt, laterTok] using Recover.param (t := laterTok n t) (semi := laterTok n semi) h1 h2 (h3.later n) h4 h5 ih
  | @wrongParam ctx m t mid args texts semi ds ls toks h1 h2 h3 h4 h5 _ ih =>
    simpa [laterTok] using Recover.wrongParam (t := laterTok n t) (semi := laterTok n semi) h1 h2 (h3.later n) h4 h5 ih
  | @wrongParamBlock ctx m t mid args texts opening inner closing ds ls toks h1 h2 h3 h4 h5 h6 _ ih =>
    simpa [laterTok] using Recover.wrongParamBlock (t := laterTok n t) (opening := laterTok n opening) (closing := laterTok n closing) h1 h2 (h3.later n) h4
      (h5.later n) h6 ih
  | @ignored ctx t mid args texts semi ds ls toks h1 h2 h3 h4 h5 _ ih =>
    simpa [laterTok] using Recover.ignored (t := laterTok n t) (semi := laterTok n semi) h1 h2 h3 (h4.later n) h5 ih
  | @ignoredBlock ctx t mid args texts opening inner closing ds ls toks h1 h2 h3 h4 h5 h6 h7 _ ih =>
    simpa [laterTok] using Recover.ignoredBlock (t := laterTok n t) (opening := laterTok n opening) (closing := laterTok n closing) h1 h2 h3 (h4.later n) h5
      (h6.later n) h7 ih
  | @simple ctx t mid args args' texts semi ds ls toks h1 h2 h3 h4 h5 h6 h7 h8 _ ih =>
    have := Recover.simple (t := laterTok n t) (semi := laterTok n semi) h1 h2 h3 (h4.later n) h5 h6 h7 h8 ih
    rw [laterList, laterList_append, laterList_comments]
    simpa [Spec.later, laterOpt, laterTok] using this
  | @wrong ctx t mid args texts semi ds ls toks h1 h2 h3 h4 h5 h6 h7 _ ih =>
    simpa [laterTok] using Recover.wrong (t := laterTok n t) (semi := laterTok n semi) h1 h2 h3 (h4.later n) h5 h6 h7 ih
  | @block ctx t mid args args' texts opening b lb inner closing ds ls toks h1 h2 h3 h4 h5 h6 h7 h8 _ h9 _ ihb ih =>
    have := Recover.block (t := laterTok n t) (opening := laterTok n opening) (closing := laterTok n closing) h1 h2 h3 (h4.later n) h5 h6 h7 h8 ihb h9 ih
    rw [laterList, laterList_append, laterList_comments]
    simpa [Spec.later, laterOpt, laterTok] using this
  | @wrongBlock ctx t mid args texts opening inner closing ds ls toks h1 h2 h3 h4 h5 h6 h7 h8 _ ih =>
    simpa [laterTok] using Recover.wrongBlock (t := laterTok n t) (opening := laterTok n opening) (closing := laterTok n closing) h1 h2 h3 (h4.later n) h5 h6
      (h7.later n) h8 ih

theorem Spec.Recover.shape {r : Rules} {ctx : List Str} {ds : List Directive} {ls : List Int} {toks : List Tok} (h : Recover r ctx ds ls toks) : Shape toks := by
  induction h with
  | nil => exact .nil
  | comment _ h2 _ ih => exact .comment h2 ih
  | skip _ h2 _ ih => exact .comment h2 ih
  | param _ h2 h3 h4 _ _ ih => exact .simple h2 h3 h4 ih
  | wrongParam _ h2 h3 h4 _ _ ih => exact .simple h2 h3 h4 ih
  | wrongParamBlock _ h2 h3 h4 h5 h6 _ ih => exact .block h2 h3 h4 h5 h6 ih
  | ignored _ _ h3 h4 h5 _ ih => exact .simple h3 h4 h5 ih
  | ignoredBlock _ _ h3 h4 h5 h6 h7 _ ih => exact .block h3 h4 h5 h6 h7 ih
  | simple _ _ h3 h4 h5 _ _ _ _ ih => exact .simple h3 h4 h5 ih
  | wrong _ _ h3 h4 h5 _ _ _ ih => exact .simple h3 h4 h5 ih
  | block _ _ h3 h4 h5 _ _ _ _ h9 _ ihb ih => exact .block h3 h4 h5 ihb h9 ih
  | wrongBlock _ _ h3 h4 h5 _ h7 h8 _ ih => exact .block h3 h4 h5 h7 h8 ih

/-! ## Texts one after the other -/

/-- C75 (tokens).  The tokens of whole lines of statements followed by more statements are the tokens of both, those of the second on later lines. -/
theorem C75_tokens {a b : Str} (ha : WholeLines a) (he : ∀ t ∈ lex a, t.error = none) (hs : Shape (lex a)) (hb : ∀ t ∈ lex b, t.error = none)
    (hw : StartsWithWord (lex b)) : lex (a ++ b) = lex a ++ (lex b).map (laterTok (a.count '\n')) := lex_append ha he hs hb hw

theorem concat_recover_of {o : ParseOptions} {da db dc : FileData}
    (e : fileToks o dc = fileToks o da ++ (fileToks o db).map (laterTok (da.runes.count '\n')))
    {r : Rules} {ds ds' : List Directive} {ls ls' : List Int}
    (he : ∀ t ∈ fileToks o da, t.error = none) (h : Recover r [] ds ls (fileToks o da))
    (he' : ∀ t ∈ fileToks o db, t.error = none) (h' : Recover r [] ds' ls' (fileToks o db)) :
    (∀ t ∈ fileToks o dc, t.error = none) ∧
    Recover r [] (ds ++ laterList (da.runes.count '\n') ds') (ls ++ ls'.map (· + (da.runes.count '\n' : Int))) (fileToks o dc) ∧
    ((∀ t ∈ fileToks o da, t.value ≠ c!"include") → (∀ t ∈ fileToks o db, t.value ≠ c!"include") → ∀ t ∈ fileToks o dc, t.value ≠ c!"include") := by
  rw [e]
  refine ⟨?_, h.append (h'.later _), ?_⟩
  · intro t ht
    rcases List.mem_append.mp ht with ht | ht
    · exact he t ht
    · obtain ⟨t', ht', rfl⟩ := List.mem_map.mp ht
      exact he' t' ht'
  · intro k k' t ht
    rcases List.mem_append.mp ht with ht | ht
    · exact k t ht
    · obtain ⟨t', ht', rfl⟩ := List.mem_map.mp ht
      exact k' t' ht'

theorem concat_recover {o : ParseOptions} (hl : o.lexers = []) {da db dc : FileData} (hc : dc.runes = da.runes ++ db.runes) (hw : WholeLines da.runes)
    {r : Rules} {ds ds' : List Directive} {ls ls' : List Int}
    (he : ∀ t ∈ fileToks o da, t.error = none) (h : Recover r [] ds ls (fileToks o da))
    (he' : ∀ t ∈ fileToks o db, t.error = none) (h' : Recover r [] ds' ls' (fileToks o db)) :
    (∀ t ∈ fileToks o dc, t.error = none) ∧
    Recover r [] (ds ++ laterList (da.runes.count '\n') ds') (ls ++ ls'.map (· + (da.runes.count '\n' : Int))) (fileToks o dc) ∧
    ((∀ t ∈ fileToks o da, t.value ≠ c!"include") → (∀ t ∈ fileToks o db, t.value ≠ c!"include") → ∀ t ∈ fileToks o dc, t.value ≠ c!"include") := by
  refine concat_recover_of ?_ he h he' h'
  have hs := h.shape
  have hs' := h'.shape.starts
  rw [fileToks_lex hl] at he he' hs hs' ⊢
  rw [fileToks_lex hl, fileToks_lex hl, hc]
  exact C75_tokens hw he hs he' hs'

theorem concat_oneFile {env : Env} {o : ParseOptions} {f g h : Str} {da db dc : FileData} (ho1 : OneFile env f o da) (ho2 : OneFile env g o db)
    (hh : env.openFile 0 h = .ok dc) (k : (∀ t ∈ fileToks o da, t.value ≠ c!"include") → (∀ t ∈ fileToks o db, t.value ≠ c!"include") →
      ∀ t ∈ fileToks o dc, t.value ≠ c!"include") : OneFile env h o dc := by
  refine ⟨ho1.perm, ho1.combine, ?_, hh⟩
  rcases ho1.alone with k1 | k1
  · exact Or.inl k1
  · rcases ho2.alone with k2 | k2
    · exact Or.inl k2
    · exact Or.inr (k k1 k2)

/-- C75.  If two files are parsed without an error, and the first is whole lines, the file with the text of the first and then the text of the second is parsed
without an error, and its tree is the one of the first and then the one of the second, on later lines. -/
theorem C75_concat {env : Env} {fuel : Nat} {o : ParseOptions} {f g h : Str} {da db dc : FileData} (hf : 2 ≤ fuel) (ho1 : OneFile env f o da)
    (ho2 : OneFile env g o db) (hh : env.openFile 0 h = .ok dc) (hl : o.lexers = []) (hc : dc.runes = da.runes ++ db.runes) (hw : WholeLines da.runes)
    (hfa : Formed o da) (hfb : Formed o db) {ds ds' : List Directive}
    (h1 : Parse env fuel f o = .ok (okPayload [(f, ds)])) (h2 : Parse env fuel g o = .ok (okPayload [(g, ds')])) :
    Parse env fuel h o = .ok (okPayload [(h, ds ++ laterList (da.runes.count '\n') ds')]) := by
  obtain ⟨e1, c1⟩ := C70_sound_tree ho1 hf hfa h1
  obtain ⟨e2, c2⟩ := C70_sound_tree ho2 hf hfb h2
  obtain ⟨e3, c3, k⟩ := concat_recover hl hc hw e1 c1.recover e2 c2.recover
  exact C70_complete (concat_oneFile ho1 ho2 hh k) hf e3 (c3.conf rfl)

/-- C75 with errors.  The same where the files have wrong statements of the kinds of C74: the errors are those of the first file and then those of the second,
on later lines. -/
theorem C75_errors {env : Env} {fuel : Nat} {o : ParseOptions} {f g h : Str} {da db dc : FileData} (hf : 2 ≤ fuel) (ho1 : OneFile env f o da)
    (ho2 : OneFile env g o db) (hh : env.openFile 0 h = .ok dc) (hl : o.lexers = []) (hs : o.stopParsingOnError = false)
    (hc : dc.runes = da.runes ++ db.runes) (hw : WholeLines da.runes) {ds ds' : List Directive} {ls ls' : List Int}
    (he1 : ∀ t ∈ fileToks o da, t.error = none) (h1 : Recover (rulesOf o) [] ds ls (fileToks o da))
    (he2 : ∀ t ∈ fileToks o db, t.error = none) (h2 : Recover (rulesOf o) [] ds' ls' (fileToks o db)) :
    ∃ p, Parse env fuel h o = .ok p ∧
      p.config.map (fun c => (c.file, c.parsed)) = [(h, ds ++ laterList (da.runes.count '\n') ds')] ∧
      p.errors.map (fun e => (e.file, e.line)) = (ls ++ ls'.map (· + (da.runes.count '\n' : Int))).map (fun l => (h, some l)) := by
  obtain ⟨e3, c3, k⟩ := concat_recover hl hc hw he1 h1 he2 h2
  obtain ⟨p, p1, p2, p3, -⟩ := C74_partial (concat_oneFile ho1 ho2 hh k) hf hs e3 c3
  refine ⟨p, p1, ?_, p3⟩
  have := congrArg (List.map fun x : Str × Str × List Directive => (x.1, x.2.2)) p2
  simpa using this

/-! ### Examples, and where it is false -/

/-- Two files and their concatenation. -/
example : Parse (exEnv [(c!"/a", c!"user a;\n#c\n"), (c!"/b", c!"http{\nserver{}}"), (c!"/c", c!"user a;\n#c\nhttp{\nserver{}}")]) 2 c!"/c" exOpts =
    .ok (okPayload [(c!"/c", [dir c!"user" 1 [c!"a"]] ++ laterList 2 [blk c!"http" 1 [] [blk c!"server" 2 [] []]])]) := by decide +kernel

example : laterList 2 [blk c!"http" 1 [] [blk c!"server" 2 [] []]] = [blk c!"http" 3 [] [blk c!"server" 4 [] []]] := by decide +kernel

/-- The theorem for these files. -/
example : Parse (exEnv [(c!"/a", c!"user a;\n#c\n"), (c!"/b", c!"http{\nserver{}}"), (c!"/c", c!"user a;\n#c\nhttp{\nserver{}}")]) 2 c!"/c" exOpts =
    .ok (okPayload [(c!"/c", [dir c!"user" 1 [c!"a"]] ++ laterList 2 [blk c!"http" 1 [] [blk c!"server" 2 [] []]])]) :=
  C75_concat (f := c!"/a") (g := c!"/b") (da := { runes := c!"user a;\n#c\n" }) (db := { runes := c!"http{\nserver{}}" })
    (dc := { runes := c!"user a;\n#c\nhttp{\nserver{}}" }) (by decide)
    ⟨fun l => List.Perm.refl l, rfl, Or.inr (by decide +kernel), rfl⟩ ⟨fun l => List.Perm.refl l, rfl, Or.inr (by decide +kernel), rfl⟩ rfl rfl (by decide)
    (Or.inr ⟨c!"user a;\n#c", by decide⟩)
    (Or.inl ⟨by decide +kernel, by
      have hl : fileToks exOpts { runes := c!"user a;\n#c\n" } = [⟨c!"user", 1, false, none⟩, ⟨c!"a", 1, false, none⟩, ⟨c!";", 1, false, none⟩,
        ⟨c!"#c", 2, false, none⟩] := by decide +kernel
      rw [hl]
      exact .simple (mid := [⟨c!"a", 1, false, none⟩]) (exWord (by decide)) (.word (exWord (by decide)) .nil) ⟨rfl, rfl⟩
        (.comment (text := c!"c") ⟨rfl, rfl⟩ .nil)⟩)
    (Or.inl ⟨by decide +kernel, by
      have hl : fileToks exOpts { runes := c!"http{\nserver{}}" } = [⟨c!"http", 1, false, none⟩, ⟨c!"{", 1, false, none⟩, ⟨c!"server", 2, false, none⟩,
        ⟨c!"{", 2, false, none⟩, ⟨c!"}", 2, false, none⟩, ⟨c!"}", 2, false, none⟩] := by decide +kernel
      rw [hl]
      exact .block (mid := []) (inner := [⟨c!"server", 2, false, none⟩, ⟨c!"{", 2, false, none⟩, ⟨c!"}", 2, false, none⟩]) (toks := [])
        (exWord (by decide)) .nil ⟨rfl, rfl⟩
        (.block (mid := []) (inner := []) (toks := []) (exWord (by decide)) .nil ⟨rfl, rfl⟩ .nil ⟨rfl, rfl⟩ .nil) ⟨rfl, rfl⟩ .nil⟩)
    (by decide +kernel) (by decide +kernel)

/-- It does not hold for a first file without the last line feed: with a comment at the end, the second file is lost. -/
theorem C75_false_line : ∃ (env : Env) (a b : Str), Parse env 2 c!"/a" exOpts = .ok (okPayload [(c!"/a", [dir c!"user" 1 [c!"a"]])]) ∧
    Parse env 2 c!"/b" exOpts = .ok (okPayload [(c!"/b", [dir c!"user" 1 [c!"b"]])]) ∧
    Parse env 2 c!"/c" exOpts = .ok (okPayload [(c!"/c", [dir c!"user" 1 [c!"a"]])]) ∧
    env.openFile 0 c!"/a" = .ok { runes := a } ∧ env.openFile 0 c!"/b" = .ok { runes := b } ∧ env.openFile 0 c!"/c" = .ok { runes := a ++ b } :=
  ⟨exEnv [(c!"/a", c!"user a;#"), (c!"/b", c!"user b;"), (c!"/c", c!"user a;#user b;")], c!"user a;#", c!"user b;",
    by decide +kernel, by decide +kernel, by decide +kernel, rfl, rfl, rfl⟩

end Verif
