import Verif.Spec.Words
import Verif.Props.SourceExt
/-!
# C91: files with the same tree differ only in layout
-/
namespace Verif
open Spec

theorem tokWords_append (a b : List Tok) : tokWords (a ++ b) = tokWords a ++ tokWords b := by
  unfold tokWords
  rw [List.filter_append, List.map_append]

theorem tokWords_cons (t : Tok) (b : List Tok) : tokWords (t :: b) = tokWords [t] ++ tokWords b := tokWords_append [t] b

theorem Spec.CommentTok.words {t : Tok} {text : Str} (h : CommentTok t text) : tokWords [t] = [] := by
  have : isComment t = true := by unfold isComment; simp [h.1, h.2]
  simp [tokWords, this]

theorem Spec.Mark.words {t : Tok} {v : Str} (h : Mark t v) (hv : v = c!"{" ∨ v = c!"}" ∨ v = c!";") : tokWords [t] = [(v, true)] := by
  have h1 : isComment t = false := by unfold isComment; rw [h.2]; rcases hv with rfl | rfl | rfl <;> simp
  have h2 : isMark t = true := by unfold isMark; rw [h.1, h.2]; rcases hv with rfl | rfl | rfl <;> rfl
  simp [tokWords, h1, h2, h.2]

theorem Spec.WordTok.words {t : Tok} (h : WordTok t) : tokWords [t] = [(t.value, false)] := by
  have h1 : isComment t = false := by
    unfold isComment
    cases hq : t.quoted with
    | true => rfl
    | false =>
      cases hv : t.value with
      | nil => rfl
      | cons c cs =>
        have : c ≠ '#' := fun e => h.1 cs ⟨hq, by rw [hv, e]⟩
        simp [this]
  have h2 : isMark t = false := by
    unfold isMark
    cases hq : t.quoted with
    | true => rfl
    | false =>
      have n1 : t.value ≠ c!"{" := fun e => h.2.1 ⟨hq, e⟩
      have n2 : t.value ≠ c!"}" := fun e => h.2.2.1 ⟨hq, e⟩
      have n3 : t.value ≠ c!";" := fun e => h.2.2.2 ⟨hq, e⟩
      simp [n1, n2, n3]
  simp [tokWords, h1, h2]

theorem Spec.Words.words {mid : List Tok} {args texts : List Str} (h : Words mid args texts) : tokWords mid = args.map fun a => (a, false) := by
  induction h with
  | nil => rfl
  | word ht _ ih => rw [tokWords_cons, ht.words, ih]; rfl
  | comment ht _ ih => rw [tokWords_cons, ht.words, ih]; rfl

theorem treeWords_append (a b : List Directive) : treeWords (a ++ b) = treeWords a ++ treeWords b := by
  induction a with
  | nil => rfl
  | cons d ds ih => simp only [List.cons_append, treeWords, ih, List.append_assoc]

theorem NoIfs_append {a b : List Directive} (h : NoIfs (a ++ b)) : NoIfs b := by
  induction a with
  | nil => exact h
  | cons d ds ih => exact ih h.2

theorem Spec.CommentDir.words {d : Directive} {text : Str} {line : Int} (h : CommentDir d text line) : dirWords d = [] := by
  obtain ⟨-, -, -, hc, -⟩ := h
  cases d
  simp only at hc
  subst hc
  rfl

theorem Spec.Trailing.words {pc : Bool} {d : Directive} {texts : List Str} {cs : List Directive} (h : Trailing pc d texts cs) : treeWords cs = [] := by
  unfold Trailing at h
  split at h
  · induction h with
    | nil => rfl
    | cons h _ ih => rw [treeWords, h.words, ih]; rfl
  · rw [h]; rfl

theorem Spec.Heads.words {t : Tok} {mid : List Tok} {d : Directive} {texts : List Str} (h : Heads t mid d texts) (hi : NoIf d) :
    dirWords d = tokWords (t :: mid) ++ endWords d.block := by
  obtain ⟨args, hw, ha⟩ := h.args
  rw [tokWords_cons, h.word.words, hw.words, ← h.name]
  have hc := h.noComment
  cases d with
  | mk dd dl dargs df di db dc dm =>
    unfold NoIf at hi
    simp only at ha hc
    rw [if_neg hi.1] at ha
    subst ha hc
    rfl

/-- C91.  The tokens of a file without errors, comments left out, are the words of its tree. -/
theorem C91_words {pc : Bool} {ds : List Directive} {toks : List Tok} (h : Source pc ds toks) (hi : NoIfs ds) : tokWords toks = treeWords ds := by
  induction h with
  | nil => rfl
  | comment _ ht hd _ ih => rw [tokWords_cons, ht.words, treeWords, hd.words, ih hi.2]
  | skip _ ht _ ih => rw [tokWords_cons, ht.words, ih hi]; rfl
  | @simple t mid semi d texts cs ds toks hh hb hm ht _ ih =>
    rw [treeWords, treeWords_append, ht.words, List.nil_append, hh.words hi.1, hb, endWords, ← List.cons_append, tokWords_append, tokWords_cons semi,
      hm.words (.inr (.inr rfl)), ih (NoIfs_append hi.2), List.append_assoc]
  | @block t mid opening inner closing d b texts cs ds toks hh hb ho _ hcl ht _ ihb ih =>
    have hib : NoIfs b := by
      have h1 := hi.1
      cases d
      simp only at hb
      subst hb
      exact h1.2
    rw [treeWords, treeWords_append, ht.words, List.nil_append, hh.words hi.1, hb, endWords, ← List.cons_append, tokWords_append, tokWords_cons opening,
      ho.words (.inl rfl), tokWords_append inner, tokWords_cons closing, hcl.words (.inr (.inl rfl)), ihb hib, ih (NoIfs_append hi.2)]
    simp only [List.append_assoc, List.cons_append, List.nil_append]

/-- Trees that differ only in lines have the same words. -/
theorem UpToLines.words {ds es : List Directive} (h : UpToLines ds es) : treeWords es = treeWords ds ∧ (NoIfs ds → NoIfs es) := by
  induction h with
  | nil => exact ⟨rfl, id⟩
  | @leaf d l ds es hb _ ih =>
    have : dirWords { d with line := l } = dirWords d ∧ (NoIf d → NoIf { d with line := l }) := by cases d; exact ⟨rfl, id⟩
    exact ⟨by rw [treeWords, treeWords, this.1, ih.1], fun h => ⟨this.2 h.1, ih.2 h.2⟩⟩
  | @node d l b c ds es hb _ _ ihb ih =>
    have : dirWords { d with line := l, block := some c } = dirWords d ∧ (NoIf d → NoIf { d with line := l, block := some c }) := by
      cases d
      simp only at hb
      subst hb
      refine ⟨?_, fun h => ⟨h.1, ihb.2 h.2⟩⟩
      simp only [dirWords, endWords, ihb.1]
    exact ⟨by rw [treeWords, treeWords, this.1, ih.1], fun h => ⟨this.2 h.1, ih.2 h.2⟩⟩

/-- C91.  Two configs without errors whose trees are the same but for lines were read from texts with the same words in the same order: the texts differ only in blanks, line feeds,
comments and quotes.  (For texts that start with a word and end every statement, as in C28, and trees without `if`, whose parentheses and blanks are not in the tree; nothing is ignored.) -/
theorem C91_same_words {env env' : Env} {fuel fuel' : Nat} {filename filename' : Str} {o o' : ParseOptions} {p p' : Payload}
    (h : Parse env fuel filename o = .ok p) (h' : Parse env' fuel' filename' o' = .ok p') (hlex : o.lexers = []) (hlex' : o'.lexers = [])
    (hi : o.ignoreDirectives = []) (hi' : o'.ignoreDirectives = []) (hcomb : o.combineConfigs = false) (hcomb' : o'.combineConfigs = false)
    (hs : p.status = c!"ok") (hs' : p'.status = c!"ok") {n n' : Nat} {c c' : Config} (hc : p.config[n]? = some c) (hc' : p'.config[n']? = some c')
    (hsame : UpToLines c.parsed c'.parsed) (hif : NoIfs c.parsed) :
    ∃ data data', ParsesFile env o filename n c.file data ∧ ParsesFile env' o' filename' n' c'.file data' ∧
      (StartsWithWord (lex data.runes) → StatementsEnd (lex data.runes) → StartsWithWord (lex data'.runes) → StatementsEnd (lex data'.runes) →
        tokWords (lex data.runes) = tokWords (lex data'.runes)) := by
  obtain ⟨d, h1, h2⟩ := C28_partial h hlex hi hcomb hs hc
  obtain ⟨d', h1', h2'⟩ := C28_partial h' hlex' hi' hcomb' hs' hc'
  refine ⟨d, d', h1, h1', fun a b a' b' => ?_⟩
  obtain ⟨e, k⟩ := UpToLines.words hsame
  rw [C91_words (h2 a b) hif, C91_words (h2' a' b') (k hif), e]

/-- C91 with external lexers: the same for the tokens they give, if marks stand apart and braces are balanced, as in C28_external. -/
theorem C91_same_words_external {env env' : Env} {fuel fuel' : Nat} {filename filename' : Str} {o o' : ParseOptions} {p p' : Payload}
    (h : Parse env fuel filename o = .ok p) (h' : Parse env' fuel' filename' o' = .ok p')
    (hi : o.ignoreDirectives = []) (hi' : o'.ignoreDirectives = []) (hcomb : o.combineConfigs = false) (hcomb' : o'.combineConfigs = false)
    (hs : p.status = c!"ok") (hs' : p'.status = c!"ok") {n n' : Nat} {c c' : Config} (hc : p.config[n]? = some c) (hc' : p'.config[n']? = some c')
    (hsame : UpToLines c.parsed c'.parsed) (hif : NoIfs c.parsed) :
    ∃ data data', ParsesFile env o filename n c.file data ∧ ParsesFile env' o' filename' n' c'.file data' ∧
      ∀ toks toks', toks = lexWith (extLexersOf o.lexers) data.runes → toks' = lexWith (extLexersOf o'.lexers) data'.runes →
        StartsWithWord toks → MarksApart toks → StatementsEnd toks → Balanced (braces toks) →
        StartsWithWord toks' → MarksApart toks' → StatementsEnd toks' → Balanced (braces toks') → tokWords toks = tokWords toks' := by
  obtain ⟨d, h1, h2⟩ := C28_external h hi hcomb hs hc
  obtain ⟨d', h1', h2'⟩ := C28_external h' hi' hcomb' hs' hc'
  refine ⟨d, d', h1, h1', fun toks toks' ht ht' a1 a2 a3 a4 b1 b2 b3 b4 => ?_⟩
  obtain ⟨e, k⟩ := UpToLines.words hsame
  rw [C91_words (h2 toks ht a1 a2 a3 a4) hif, C91_words (h2' toks' ht' b1 b2 b3 b4) (k hif), e]

/-- Two texts with the same tree but for lines: C91_same_words applies. -/
example : ∃ data data', ParsesFile (exEnv [(c!"/e/a", c!"http{#x\n sendfile on;}")]) exOpts c!"/e/a" 0 c!"/e/a" data ∧
    ParsesFile (exEnv [(c!"/e/b", c!"http\n\n{ sendfile 'on' ; }")]) exOpts c!"/e/b" 0 c!"/e/b" data' ∧
    (StartsWithWord (lex data.runes) → StatementsEnd (lex data.runes) → StartsWithWord (lex data'.runes) → StatementsEnd (lex data'.runes) →
      tokWords (lex data.runes) = tokWords (lex data'.runes)) :=
  C91_same_words (fuel := 2) (fuel' := 2) (p := okPayload [(c!"/e/a", [blk c!"http" 1 [] [dir c!"sendfile" 2 [c!"on"]]])])
    (p' := okPayload [(c!"/e/b", [blk c!"http" 1 [] [dir c!"sendfile" 3 [c!"on"]]])]) (by decide +kernel) (by decide +kernel) rfl rfl rfl rfl rfl rfl rfl rfl
    (c := ⟨c!"/e/a", c!"ok", [], [blk c!"http" 1 [] [dir c!"sendfile" 2 [c!"on"]]]⟩)
    (c' := ⟨c!"/e/b", c!"ok", [], [blk c!"http" 1 [] [dir c!"sendfile" 3 [c!"on"]]]⟩) rfl rfl
    (.node (d := blk c!"http" 1 [] [dir c!"sendfile" 2 [c!"on"]]) (line := 1) rfl (.leaf (d := dir c!"sendfile" 2 [c!"on"]) (line := 3) rfl .nil) .nil)
    (by simp [NoIfs, NoIf, NoIfOpt, blk, dir])

/-- The words of a tree with a comment and nested blocks. -/
example : treeWords [⟨c!"#", 1, [], [], none, none, some c!"x", false⟩, blk c!"http" 1 [] [dir c!"listen" 2 [c!"80", c!"a b"]]] =
    [(c!"http", false), (c!"{", true), (c!"listen", false), (c!"80", false), (c!"a b", false), (c!";", true), (c!"}", true)] := by
  simp [treeWords, dirWords, endWords, blk, dir]

example : tokWords (lex c!"# x\n http\n{listen '80' #y\n \"a b\";}") =
    [(c!"http", false), (c!"{", true), (c!"listen", false), (c!"80", false), (c!"a b", false), (c!";", true), (c!"}", true)] := by decide +kernel

/-- C91, the boundary: of an `if` the tree keeps neither the parentheses nor the blanks after them. -/
theorem C91_false_if : ∃ s s', (∃ b, Parse (exEnv [(c!"/e/a", s)]) 2 c!"/e/a" exOpts = .ok (okPayload [(c!"/e/a", [blk c!"http" 1 [] [blk c!"server" 1 [] [blk c!"if" 1 [c!"a"] b]]])]) ∧
    Parse (exEnv [(c!"/e/a", s')]) 2 c!"/e/a" exOpts = .ok (okPayload [(c!"/e/a", [blk c!"http" 1 [] [blk c!"server" 1 [] [blk c!"if" 1 [c!"a"] b]]])])) ∧
    tokWords (lex s) ≠ tokWords (lex s') :=
  ⟨c!"http{server{if (a){}}}", c!"http{server{if ( a ) {}}}", ⟨[], by decide +kernel, by decide +kernel⟩, by decide +kernel⟩

end Verif
