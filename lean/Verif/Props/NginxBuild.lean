import Verif.Spec.NginxTree
import Verif.Props.Nginx
import Verif.Props.Enquote
import Verif.Props.Build
import Verif.Proofs.Combine
import Verif.Props.Ex
/-!
# C100: nginx reads what Build writes
-/
namespace Verif
open Spec

/-! ## Strings -/

theorem ngxValue_cons {c : Char} (h : c ≠ '\\') (X : Str) : ngxValue (c :: X) = c :: ngxValue X := by
  cases X with
  | nil => rfl
  | cons d X => rw [ngxValue, if_neg h]

/-- A parameter is read if a blank or a semicolon follows it. -/
def ReadsParam (t v : Str) : Prop := ∃ tok : NgxTok, tok.meaning = (v, false) ∧ ∀ (args depth : Nat) (c : Char) (rest : Str), c = ' ' ∨ c = ';' →
  ngxRun { args := args, depth := depth } (t ++ c :: rest) = (ngxRun { pos := .need, args := args + 1, depth := depth } (c :: rest)).map (tok :: ·)

/-- A character between quotes. -/
theorem enc_read {isPrint : Char → Bool} {q c : Char} (hq : q = '"' ∧ c ≠ '"' ∨ q = '\'') (hc : NgxChar isPrint c) :
    (enc isPrint q c = [c] ∧ c ≠ q ∧ c ≠ '\\') ∨ ∃ x, enc isPrint q c = ['\\', x] ∧ ∀ X, ngxValue ('\\' :: x :: X) = c :: ngxValue X := by
  unfold enc
  by_cases h1 : c = '\\' ∨ c = '"'
  · rw [if_pos h1]
    rcases h1 with h1 | h1
    · exact absurd h1 hc.1
    · subst h1
      rcases hq with ⟨-, h⟩ | rfl
      · exact absurd rfl h
      · exact .inl ⟨rfl, by decide, by decide⟩
  · rw [if_neg h1]
    simp only [not_or] at h1
    by_cases h2 : isPrint c = true
    · rw [if_pos h2]
      by_cases h3 : c = '\'' ∧ q = '\''
      · rw [if_pos h3]
        obtain ⟨rfl, rfl⟩ := h3
        exact .inr ⟨'\'', rfl, fun X => rfl⟩
      · rw [if_neg h3]
        refine .inl ⟨rfl, ?_, h1.1⟩
        rintro rfl
        rcases hq with ⟨h, h'⟩ | h
        · exact h' h
        · exact h3 ⟨h, h⟩
    · rw [if_neg h2]
      have hn : isPrint c = false := by simpa using h2
      right
      rcases hc.2 with h | rfl | rfl | rfl | rfl
      · exact absurd h h2
      · exact ⟨'t', by simp [escapeRune, hn], fun X => rfl⟩
      · exact ⟨'n', by simp [escapeRune, hn], fun X => rfl⟩
      · exact ⟨'r', by simp [escapeRune, hn], fun X => rfl⟩
      · exact absurd rfl h1.2

theorem string_read {isPrint : Char → Bool} {q : Char} (hq : q = '"' ∨ q = '\'') {args depth : Nat} (rest : Str) : ∀ (s raw : Str), (∀ c ∈ s, NgxChar isPrint c) → (q = '"' → '"' ∉ s) →
    ngxRun { pos := .quoted q, raw := raw, args := args, depth := depth } (s.flatMap (enc isPrint q) ++ q :: rest) =
      (ngxRun { pos := .need, args := args + 1, depth := depth } rest).map (.word (raw ++ s.flatMap (enc isPrint q)) (some q) :: ·) ∧
    ngxValue (s.flatMap (enc isPrint q)) = s := by
  have hq' : q ≠ '\\' := by rcases hq with rfl | rfl <;> decide
  intro s
  induction s with
  | nil =>
    intro raw _ _
    refine ⟨?_, rfl⟩
    simp [ngxRun, ngxStep, hq']
  | cons c s ih =>
    intro raw hs hn
    have hi := fun raw => ih raw (fun x hx => hs x (.tail _ hx)) fun e hx => hn e (.tail _ hx)
    have hc : q = '"' ∧ c ≠ '"' ∨ q = '\'' := by
      rcases hq with e | e
      · exact .inl ⟨e, fun h => hn e (by rw [h]; exact .head _)⟩
      · exact .inr e
    rw [List.flatMap_cons]
    rcases enc_read hc (hs c (.head _)) with ⟨e, h1, h2⟩ | ⟨x, e, h1⟩
    · rw [e]
      refine ⟨?_, ?_⟩
      · rw [List.append_assoc, List.cons_append, List.nil_append, ngxRun]
        simp only [ngxStep, Bool.false_eq_true, if_false, h1, h2, Option.bind_some, (hi _).1, List.nil_append, List.append_assoc, List.cons_append, Option.map_id']
      · rw [List.cons_append, List.nil_append, ngxValue_cons h2, (hi []).2]
    · rw [e]
      refine ⟨?_, ?_⟩
      · rw [List.append_assoc, List.cons_append, List.cons_append, List.nil_append, ngxRun]
        simp only [ngxStep, Bool.false_eq_true, if_false, if_true, Option.bind_some, ngxRun, (hi _).1, List.nil_append, List.append_assoc, List.cons_append, Option.map_id']
      · rw [List.cons_append, List.cons_append, List.nil_append, h1, (hi []).2]

/-- Characters of a word. -/
def WordChar (c : Char) : Prop := c ≠ '\\' ∧ ngxBlank c = false ∧ c ≠ ';' ∧ c ≠ '{'

theorem word_read {args depth : Nat} {c : Char} (hc : c = ' ' ∨ c = ';') (rest : Str) : ∀ (s raw : Str) (var : Bool), (∀ x ∈ s, WordChar x) →
    ngxRun { pos := .word, raw := raw, var := var, args := args, depth := depth } (s ++ c :: rest) =
      (ngxRun { pos := .need, args := args + 1, depth := depth } (c :: rest)).map (.word (raw ++ s) none :: ·) := by
  intro s
  induction s with
  | nil =>
    intro raw var _
    rcases hc with rfl | rfl
    · simp [ngxRun, ngxStep, ngxBlank]
    · simp [ngxRun, ngxStep, ngxBlank, ngxEnd]
      rfl
  | cons x s ih =>
    intro raw var hs
    obtain ⟨h1, h2, h3, h4⟩ := hs x (.head _)
    have hi := fun raw var => ih raw var fun y hy => hs y (.tail _ hy)
    rw [List.cons_append, ngxRun]
    by_cases h5 : x = '$'
    · subst h5
      have e : ngxStep { pos := .word, raw := raw, var := var, args := args, depth := depth } '$' =
          some ([], { pos := .word, raw := raw ++ ['$'], var := true, args := args, depth := depth }) := by simp [ngxStep]
      rw [e]
      simp only [Option.bind_some, hi, List.append_assoc, List.cons_append, List.nil_append, Option.map_id']
    · simp only [ngxStep, Bool.false_eq_true, if_false, h4, false_and, h1, h5, h2, h3, or_self, Option.bind_some, hi, List.append_assoc, List.cons_append, List.nil_append, Option.map_id']

/-- Words. -/
theorem ReadsParam.word {c : Char} {s : Str} (h0 : c ≠ '#' ∧ c ≠ '"' ∧ c ≠ '\'' ∧ c ≠ '}') (h : ∀ x ∈ c :: s, WordChar x) : ReadsParam (c :: s) (c :: s) := by
  obtain ⟨h1, h2, h3, h4⟩ := h c (.head _)
  refine ⟨.word (c :: s) none, ?_, fun args depth x rest hx => ?_⟩
  · rw [NgxTok.meaning, ngxValue_id _ fun hx => (h _ hx).1 rfl]
  · rw [List.cons_append, ngxRun]
    simp only [ngxStep, ngxStart, h2, Bool.false_eq_true, if_false, h3, h4, or_self, h0, h1, Option.bind_some, List.nil_append, Option.map_id']
    exact word_read hx rest s [c] _ fun y hy => h y (.tail _ hy)

theorem loop_chars {e : Bool} {ch p : Char} {s : Str} (hb : '\\' ∉ s) (hp : p ≠ '\\') (h : needsQuoteLoop e ch p s = false) : ∀ x ∈ s, isSpaceRune x = false ∧ x ≠ ';' ∧ x ≠ '{' := by
  induction s generalizing e ch p with
  | nil => simp
  | cons c s ih =>
    rw [needsQuoteLoop, if_neg (by simpa using hp)] at h
    simp only at h
    split at h
    · cases h
    · rename_i h1
      split at h
      · cases h
      · intro x hx
        rcases List.mem_cons.mp hx with rfl | hx
        · simp only [Bool.or_eq_true, not_or, Bool.not_eq_true, beq_eq_false_iff_ne] at h1
          exact ⟨h1.1.1.1.1, h1.1.1.2, h1.1.1.1.2⟩
        · exact ih (fun h => hb (List.mem_cons_of_mem _ h)) (fun h => hb (by simp [h])) h x hx

theorem wordChar_of {c : Char} (h1 : c ≠ '\\') (h2 : isSpaceRune c = false) (h3 : c ≠ ';') (h4 : c ≠ '{') : WordChar c := by
  refine ⟨h1, ?_, h3, h4⟩
  rw [Bool.eq_false_iff]
  intro hx
  simp only [ngxBlank, Bool.or_eq_true, decide_eq_true_eq] at hx
  rcases hx with ((rfl | rfl) | rfl) | rfl <;> revert h2 <;> decide

/-- Strings that are not quoted. -/
theorem unquoted_chars {s : Str} (h : needsQuote s = false) (hb : '\\' ∉ s) : ∃ c cs, s = c :: cs ∧ (c ≠ '"' ∧ c ≠ '\'' ∧ c ≠ '}') ∧ ∀ x ∈ s, WordChar x := by
  obtain ⟨c, cs, rfl, hc, -, hl⟩ := needsQuote_false h
  refine ⟨c, cs, rfl, ⟨hc.2.2.2.2.1, hc.2.2.2.2.2, hc.2.2.1⟩, fun x hx => ?_⟩
  rcases List.mem_cons.mp hx with rfl | hx'
  · exact wordChar_of (fun e => hb (by rw [e]; exact .head _)) hc.1 hc.2.2.2.1 hc.2.1
  · obtain ⟨a1, a2, a3⟩ := loop_chars (fun h => hb (List.mem_cons_of_mem _ h)) (by decide) hl x hx'
    exact wordChar_of (fun e => hb (by rw [← e]; exact hx)) a1 a2 a3

/-- C100.  nginx reads an argument that was written by `Enquote` as it is meant. -/
theorem C100_string {isPrint : Char → Bool} {s : Str} (h : NgxString isPrint s) : ReadsParam (Enquote isPrint s) s := by
  have hb : '\\' ∉ s := fun hx => (h.1 _ hx).1 rfl
  rw [C40_text]
  by_cases hn : needsQuote s = true
  · rw [if_pos hn]
    have hq : quoteFor s = '"' ∨ quoteFor s = '\'' := by unfold quoteFor; split <;> simp
    have hq2 : quoteFor s = '"' → '"' ∉ s := by
      unfold quoteFor
      split
      · rintro ⟨⟩
      · intro _; assumption
    refine ⟨.word (s.flatMap (enc isPrint (quoteFor s))) (some (quoteFor s)), ?_, fun args depth c rest hc => ?_⟩
    · rw [NgxTok.meaning, (string_read (args := 0) (depth := 0) hq [] s [] h.1 hq2).2]
    · have := (string_read (args := args) (depth := depth) hq (c :: rest) s [] h.1 hq2).1
      rw [List.nil_append] at this
      rw [← this]
      simp only [List.cons_append, List.append_assoc, List.nil_append]
      rw [ngxRun]
      rcases hq with e | e <;> simp [e, ngxStep, ngxStart, ngxBlank]
  · rw [if_neg hn]
    obtain ⟨c, cs, rfl, h1, h2⟩ := unquoted_chars (by simpa using hn) hb
    exact ReadsParam.word ⟨fun e => h.2 (by rw [e]; rfl), h1⟩ h2

/-! ## Statements -/

/-- Reading a text leads from one state to another. -/
def NgxReads (st : NgxSt) (t : Str) (ms : List (Str × Bool)) (st' : NgxSt) : Prop :=
  ∃ toks : List NgxTok, toks.map NgxTok.meaning = ms ∧ ∀ rest, ngxRun st (t ++ rest) = (ngxRun st' rest).map (toks ++ ·)

theorem NgxReads.nil (st : NgxSt) : NgxReads st [] [] st := ⟨[], rfl, fun rest => by simp⟩

theorem NgxReads.trans {a b c : NgxSt} {s t : Str} {ms ns : List (Str × Bool)} (h : NgxReads a s ms b) (g : NgxReads b t ns c) : NgxReads a (s ++ t) (ms ++ ns) c := by
  obtain ⟨x, rfl, hx⟩ := h
  obtain ⟨y, rfl, hy⟩ := g
  refine ⟨x ++ y, by simp, fun rest => ?_⟩
  rw [List.append_assoc, hx, hy, Option.map_map]
  simp [Function.comp_def]

theorem NgxReads.step {a b : NgxSt} {c : Char} {o : List NgxTok} (h : ngxStep a c = some (o, b)) : NgxReads a [c] (o.map NgxTok.meaning) b :=
  ⟨o, rfl, fun rest => by rw [List.cons_append, List.nil_append, ngxRun, h]; rfl⟩

/-- The parameters of a statement. -/
theorem params_read {depth : Nat} : ∀ (ts vs : List Str) (t v : Str) (args : Nat), List.Forall₂ ReadsParam (t :: ts) (v :: vs) →
    ∃ toks : List NgxTok, toks.map NgxTok.meaning = (v :: vs).map (·, false) ∧ ∃ n, ∀ c rest, c = ' ' ∨ c = ';' →
      ngxRun { args := args, depth := depth } (t ++ ts.flatMap (' ' :: ·) ++ c :: rest) = (ngxRun { pos := .need, args := n + 1, depth := depth } (c :: rest)).map (toks ++ ·) := by
  intro ts
  induction ts with
  | nil =>
    intro vs t v args h
    cases h with
    | cons h1 h2 =>
      cases h2
      obtain ⟨tok, m, hr⟩ := h1
      exact ⟨[tok], by simp [m], args, fun c rest hc => by simpa using hr args depth c rest hc⟩
  | cons t2 ts ih =>
    intro vs t v args h
    cases h with
    | cons h1 h2 =>
      cases vs with
      | nil => cases h2
      | cons v2 vs =>
        obtain ⟨tok, m, hr⟩ := h1
        obtain ⟨toks, m2, n, hn⟩ := ih vs t2 v2 (args + 1) h2
        refine ⟨tok :: toks, by simp [m, m2], n, fun c rest hc => ?_⟩
        have e : t ++ (t2 :: ts).flatMap (' ' :: ·) ++ c :: rest = t ++ ' ' :: (t2 ++ ts.flatMap (' ' :: ·) ++ c :: rest) := by simp
        rw [e, hr args depth ' ' _ (.inl rfl), ngxRun]
        have e2 : ngxStep { pos := .need, args := args + 1, depth := depth } ' ' = some ([], { args := args + 1, depth := depth }) := rfl
        rw [e2, Option.bind_some, hn c rest hc]
        simp [Option.map_map, Function.comp_def]

theorem simple_read {depth : Nat} {ts vs : List Str} {t v : Str} (h : List.Forall₂ ReadsParam (t :: ts) (v :: vs)) :
    NgxReads { depth := depth } (t ++ ts.flatMap (' ' :: ·) ++ c!";") ((v :: vs).map (·, false) ++ [(c!";", true)]) { depth := depth } := by
  obtain ⟨toks, m, n, hn⟩ := params_read (depth := depth) ts vs t v 0 h
  refine ⟨toks ++ [.special ';'], by rw [List.map_append, m]; rfl, fun rest => ?_⟩
  have e : t ++ ts.flatMap (' ' :: ·) ++ c!";" ++ rest = t ++ ts.flatMap (' ' :: ·) ++ ';' :: rest := by simp
  rw [e, hn ';' rest (.inr rfl), ngxRun]
  have e2 : ngxStep { pos := .need, args := n + 1, depth := depth } ';' = some ([.special ';'], { depth := depth }) := rfl
  rw [e2, Option.bind_some, Option.map_map]
  simp [Function.comp_def]

theorem block_read {depth : Nat} {ts vs : List Str} {t v : Str} (h : List.Forall₂ ReadsParam (t :: ts) (v :: vs)) :
    NgxReads { depth := depth } (t ++ ts.flatMap (' ' :: ·) ++ c!" {") ((v :: vs).map (·, false) ++ [(c!"{", true)]) { depth := depth + 1 } := by
  obtain ⟨toks, m, n, hn⟩ := params_read (depth := depth) ts vs t v 0 h
  refine ⟨toks ++ [.special '{'], by rw [List.map_append, m]; rfl, fun rest => ?_⟩
  have e : t ++ ts.flatMap (' ' :: ·) ++ c!" {" ++ rest = t ++ ts.flatMap (' ' :: ·) ++ ' ' :: '{' :: rest := by simp
  rw [e, hn ' ' _ (.inl rfl), ngxRun]
  have e2 : ngxStep { pos := .need, args := n + 1, depth := depth } ' ' = some ([], { args := n + 1, depth := depth }) := rfl
  have e3 : ngxStep { args := n + 1, depth := depth } '{' = some ([.special '{'], { depth := depth + 1 }) := rfl
  rw [e2, Option.bind_some, ngxRun, e3, Option.bind_some, Option.map_map, Option.map_map]
  simp [Function.comp_def]

/-- The arguments of `if`. -/
theorem closeLast_text (a : Str) : ∀ as : List Str, ∀ a, (closeLast a as).flatMap (' ' :: ·) = ' ' :: (joinStr c!" " (a :: as) ++ c!")") := by
  intro as
  induction as with
  | nil => intro a; simp [closeLast, joinStr]
  | cons b as ih => intro a; rw [closeLast, List.flatMap_cons, ih b]; simp [joinStr]

theorem parenWords_text (as : List Str) : (parenWords as).flatMap (' ' :: ·) = c!" (" ++ joinStr c!" " as ++ c!")" := by
  cases as with
  | nil => rfl
  | cons a as =>
    rw [parenWords, closeLast_text a]
    cases as <;> simp [joinStr]

theorem parenWords_read {as : List Str} (h : ∀ a ∈ as, needsQuote a = false ∧ '\\' ∉ a ∧ a.head? ≠ some '#') : List.Forall₂ ReadsParam (parenWords as) (parenWords as) := by
  have paren : ∀ c, c = '(' ∨ c = ')' → WordChar c := by rintro c (rfl | rfl) <;> exact ⟨by decide, by decide, by decide, by decide⟩
  have key : ∀ as : List Str, ∀ c cs, (c ≠ '#' ∧ c ≠ '"' ∧ c ≠ '\'' ∧ c ≠ '}') → (∀ x ∈ c :: cs, WordChar x) → (∀ a ∈ as, needsQuote a = false ∧ '\\' ∉ a ∧ a.head? ≠ some '#') →
      List.Forall₂ ReadsParam (closeLast (c :: cs) as) (closeLast (c :: cs) as) := by
    intro as
    induction as with
    | nil =>
      intro c cs h1 h2 _
      refine .cons (ReadsParam.word (s := cs ++ c!")") h1 fun x hx => ?_) .nil
      rw [← List.cons_append] at hx
      rcases List.mem_append.mp hx with hx | hx
      · exact h2 x hx
      · exact paren x (.inr (List.mem_singleton.mp hx))
    | cons a as ih =>
      intro c cs h1 h2 h3
      obtain ⟨g1, g2, g3⟩ := h3 a (.head _)
      obtain ⟨x, xs, rfl, k1, k2⟩ := unquoted_chars g1 g2
      exact .cons (ReadsParam.word h1 h2) (ih x xs ⟨fun e => g3 (by rw [e]; rfl), k1⟩ k2 fun a ha => h3 a (.tail _ ha))
  cases as with
  | nil => exact .cons (ReadsParam.word (by decide) (by intro x hx; exact paren x (by simpa using hx))) .nil
  | cons a as =>
    obtain ⟨g1, g2, g3⟩ := h a (.head _)
    obtain ⟨x, xs, rfl, k1, k2⟩ := unquoted_chars g1 g2
    refine key as '(' (x :: xs) (by decide) (fun y hy => ?_) fun b hb => h b (.tail _ hb)
    rcases List.mem_cons.mp hy with rfl | hy
    · exact paren _ (.inl rfl)
    · exact k2 y hy

theorem Enquote_ngx_if {isPrint : Char → Bool} {s : Str} (h : Enquote isPrint s = c!"if") : s = c!"if" := by
  rw [C40_text] at h
  by_cases hn : needsQuote s = true
  · rw [if_pos hn] at h
    obtain ⟨h, -⟩ := List.cons.inj h
    unfold quoteFor at h
    split at h
    · exact absurd h (by decide)
    · exact absurd h (by decide)
  · rwa [if_neg hn] at h

/-- Name and arguments of a directive. -/
theorem head_read {isPrint : Char → Bool} {name : Str} {args : List Str} (h : ∀ s ∈ name :: args, NgxString isPrint s) (hi : name = c!"if" → ∀ a ∈ args, needsQuote a = false) :
    ∃ ts vs, buildArgs isPrint (Enquote isPrint name) args = ts.flatMap (' ' :: ·) ∧ ngxParams name args = name :: vs ∧ List.Forall₂ ReadsParam (Enquote isPrint name :: ts) (name :: vs) := by
  have h0 := C100_string (h name (.head _))
  by_cases hn : name = c!"if"
  · subst hn
    have e : Enquote isPrint c!"if" = c!"if" := by rw [C40_text, if_neg (by decide)]
    refine ⟨parenWords args, parenWords args, ?_, by simp [ngxParams], .cons h0 (parenWords_read fun a ha => ⟨hi rfl a ha, fun hx => ((h a (.tail _ ha)).1 _ hx).1 rfl, (h a (.tail _ ha)).2⟩)⟩
    rw [e, parenWords_text, buildArgs, if_pos (by decide)]
    have : args.map (Enquote isPrint) = args := by
      rw [List.map_congr_left (g := id) fun a ha => by rw [C40_text, if_neg (by simp [hi rfl a ha])]; rfl]
      simp
    rw [this]
  · refine ⟨args.map (Enquote isPrint), args, ?_, by simp [ngxParams, hn], .cons h0 ?_⟩
    · rw [buildArgs, if_neg (by simpa using fun e => hn (Enquote_ngx_if e)), List.flatMap_map]
    · have : ∀ l : List Str, (∀ a ∈ l, NgxString isPrint a) → List.Forall₂ ReadsParam (l.map (Enquote isPrint)) l := by
        intro l
        induction l with
        | nil => intro _; exact .nil
        | cons a l ih => intro hl; exact .cons (C100_string (hl a (.head _))) (ih fun b hb => hl b (.tail _ hb))
      exact this args fun a ha => h a (.tail _ ha)

/-! ## Trees -/

/-- Between statements: after a blank or within a comment. -/
def NgxBetween (k : Nat) (st : NgxSt) : Prop := st = { depth := k } ∨ st = { pos := .comment, depth := k }

theorem margin_chars {o : BuildOptions} {depth : Nat} {m : Str} (h : margin o depth = some m) : ∀ c ∈ m, c = ' ' ∨ c = '\t' := by
  unfold margin at h
  simp only at h
  intro c hc
  split_ifs at h <;> first
    | (cases h; rw [List.eq_of_mem_replicate hc]; simp)
    | skip

theorem blanks_read {k : Nat} : ∀ m : Str, (∀ c ∈ m, c = ' ' ∨ c = '\t') → NgxReads { depth := k } m [] { depth := k } := by
  intro m
  induction m with
  | nil => intro _; exact .nil _
  | cons c m ih =>
    intro h
    have h1 : NgxReads { depth := k } [c] [] { depth := k } := by
      rcases h c (.head _) with rfl | rfl
      · exact NgxReads.step (o := []) rfl
      · exact NgxReads.step (o := []) rfl
    exact h1.trans (ih fun x hx => h x (.tail _ hx))

theorem comment_read {k : Nat} : ∀ t : Str, '\n' ∉ t → NgxReads { pos := .comment, depth := k } t [] { pos := .comment, depth := k } := by
  intro t
  induction t with
  | nil => intro _; exact .nil _
  | cons c t ih =>
    intro h
    have hc : c ≠ '\n' := fun e => h (by rw [e]; exact .head _)
    have h1 : NgxReads { pos := .comment, depth := k } [c] [] { pos := .comment, depth := k } := NgxReads.step (o := []) (by simp [ngxStep, hc])
    exact h1.trans (ih fun hx => h (.tail _ hx))

theorem nl_read {k : Nat} {st : NgxSt} (h : NgxBetween k st) : NgxReads st c!"\n" [] { depth := k } := by
  rcases h with rfl | rfl
  · exact NgxReads.step (o := []) rfl
  · exact NgxReads.step (o := []) rfl

/-- `#` and a text without line feeds, wherever a comment may stand. -/
theorem sharp_read {k : Nat} {t : Str} (ht : '\n' ∉ t) : NgxReads { depth := k } ('#' :: t) [] { pos := .comment, depth := k } :=
  NgxReads.trans (s := ['#']) (NgxReads.step (o := []) rfl) (comment_read t ht)

theorem last_append {a b : Str} (ha : a.getLast? ≠ some '\n' ∨ b ≠ []) (hb : b.getLast? ≠ some '\n') : (a ++ b).getLast? ≠ some '\n' := by
  cases b with
  | nil =>
    rcases ha with ha | ha
    · simpa using ha
    · exact absurd rfl ha
  | cons x b =>
    rw [List.getLast?_append]
    cases h : (x :: b).getLast? with
    | none => simp at h
    | some y => rw [h] at hb; simpa using hb

theorem last_comment {t : Str} (h : '\n' ∉ t) : t.getLast? ≠ some '\n' := fun e => h (List.mem_of_getLast? e)

/-- The statements of a block. -/
theorem tree_read {isPrint : Char → Bool} {o : BuildOptions} (hext : ∀ n, o.ext n = none) : ∀ (ds : List Directive), (∀ d, Within d ds → NgxFine isPrint d) →
    ∀ (parent : Bool) (depth : Nat) (line : Int) (first : Bool) (k : Nat) (st : NgxSt) (body : Str), buildBlock isPrint o parent depth line first ds = some body → NgxBetween k st →
      (first = true → parent = false → st = { depth := k }) → ∃ st', NgxBetween k st' ∧ NgxReads st body (ngxTree ds) st' ∧ body.getLast? ≠ some '\n' := by
  intro ds
  induction ds using listInd with
  | h0 =>
    intro _ parent depth line first k st body hb hst _
    rw [buildBlock] at hb
    cases hb
    exact ⟨st, hst, .nil _, by simp⟩
  | h1 d ds ihb ih =>
    intro hf parent depth line first k st body hb hst hfirst
    have hd := hf d (.here (.head _))
    have hds : ∀ x, Within x ds → NgxFine isPrint x := fun x hx => hf x (within_cons.mpr (.inr (.inr hx)))
    rw [buildBlock] at hb
    by_cases hsame : sameLineComment d line = true
    · rw [if_pos hsame] at hb
      obtain ⟨tail, ht, hb⟩ := Option.bind_eq_some_iff.mp hb
      cases hb
      have hc : d.directive = c!"#" ∧ d.comment.isSome = true := by
        simp only [sameLineComment, Directive.isComment, Bool.and_eq_true, beq_iff_eq] at hsame
        exact hsame.2
      rw [NgxFine, if_pos hc] at hd
      obtain ⟨t, e⟩ := Option.isSome_iff_exists.mp hc.2
      have htn : '\n' ∉ t := by rw [e] at hd; exact hd
      obtain ⟨st', a1, a2, a3⟩ := ih hds parent depth line false k { pos := .comment, depth := k } tail ht (.inr rfl) (fun h => by cases h)
      have hr : NgxReads st (c!" #" ++ t) [] { pos := .comment, depth := k } := by
        rcases hst with rfl | rfl
        · exact NgxReads.trans (s := [' ']) (NgxReads.step (o := []) rfl) (sharp_read htn)
        · exact comment_read _ (by simpa using htn)
      refine ⟨st', a1, ?_, ?_⟩
      · rw [ngxTree, show ngxDir d = [] by cases d; rw [ngxDir, if_pos hc]]
        rw [e, Option.getD_some]
        exact hr.trans a2
      · rw [e, Option.getD_some]
        refine last_append ?_ a3
        left
        exact last_append (.inl (by decide)) (last_comment htn)
    · rw [if_neg hsame] at hb
      obtain ⟨⟨s, upd⟩, hs, hb⟩ := Option.bind_eq_some_iff.mp hb
      obtain ⟨tail, ht, hb⟩ := Option.bind_eq_some_iff.mp hb
      cases hb
      -- the statement
      have stmt : ∃ st', NgxBetween k st' ∧ NgxReads { depth := k } s (ngxDir d) st' ∧ s.getLast? ≠ some '\n' ∧ s ≠ [] := by
        obtain ⟨dd, dl, da, df, di, db, dc, dm⟩ := d
        rw [buildStmt] at hs
        obtain ⟨m, hm, hs⟩ := Option.bind_eq_some_iff.mp hs
        have hm' := blanks_read (k := k) m (margin_chars hm)
        rw [hext] at hs
        simp only at hs
        by_cases hc : dd = c!"#" ∧ dc.isSome = true
        · rw [NgxFine, if_pos hc] at hd
          obtain ⟨t, rfl⟩ := Option.isSome_iff_exists.mp hc.2
          have htn : '\n' ∉ t := hd
          rw [hc.1] at hs
          simp only [beq_self_eq_true, if_true, Option.some.injEq, Prod.mk.injEq] at hs
          obtain ⟨rfl, -⟩ := hs
          refine ⟨_, .inr rfl, ?_, ?_⟩
          · rw [ngxDir, if_pos hc, List.append_assoc]
            exact hm'.trans (sharp_read htn)
          · exact ⟨last_append (.inl (last_append (.inr (by simp)) (by decide))) (last_comment htn), by simp⟩
        · rw [NgxFine, if_neg hc] at hd
          have hnone : (if (dd == c!"#") = true then dc else none) = none := by
            by_cases he : dd = c!"#"
            · rw [if_pos (by simpa using he)]
              cases dc with
              | none => rfl
              | some t => exact absurd ⟨he, rfl⟩ hc
            · rw [if_neg (by simpa using he)]
          rw [hnone] at hs
          simp only at hs
          obtain ⟨tl, htl, hs⟩ := Option.bind_eq_some_iff.mp hs
          simp only [Option.some.injEq, Prod.mk.injEq] at hs
          obtain ⟨rfl, -⟩ := hs
          obtain ⟨ts, vs, e1, e2, e3⟩ := head_read hd.1 hd.2
          rw [ngxDir, if_neg hc, e1]
          have e2' : ngxParams dd da = dd :: vs := e2
          rw [e2']
          cases db with
          | none =>
            rw [buildOpt] at htl
            cases htl
            refine ⟨_, .inl rfl, ?_, last_append (.inr (by simp)) (by decide), by simp⟩
            have := hm'.trans (simple_read (depth := k) e3)
            simpa [ngxBody] using this
          | some b =>
            rw [buildOpt] at htl
            obtain ⟨body, hbody, htl⟩ := Option.bind_eq_some_iff.mp htl
            obtain ⟨m2, hm2, htl⟩ := Option.bind_eq_some_iff.mp htl
            cases htl
            obtain ⟨st', a1, a2, -⟩ := ihb b rfl (fun x hx => hf x (.deep (.head _) rfl hx)) true (depth + 1) dl true (k + 1) { depth := k + 1 } body hbody (.inl rfl) (fun _ h => by cases h)
            refine ⟨_, .inl rfl, ?_, last_append (.inr (by simp)) (last_append (.inr (by simp)) (by decide)), by simp⟩
            have hclose : NgxReads { depth := k + 1 } c!"}" [(c!"}", true)] { depth := k } := NgxReads.step (o := [.special '}']) rfl
            have := hm'.trans ((block_read (depth := k) e3).trans (a2.trans ((nl_read a1).trans ((blanks_read m2 (margin_chars hm2)).trans hclose))))
            simpa [ngxBody] using this
      obtain ⟨st1, b1, b2, b3, b4⟩ := stmt
      obtain ⟨st', a1, a2, a3⟩ := ih hds parent depth _ false k st1 tail ht b1 (fun h => by cases h)
      have hnl : NgxReads st (if !first || parent then c!"\n" else []) [] { depth := k } := by
        cases first with
        | false => exact nl_read hst
        | true =>
          cases parent with
          | true => exact nl_read hst
          | false => rw [hfirst rfl rfl]; exact .nil _
      refine ⟨st', a1, ?_, ?_⟩
      · rw [ngxTree]
        exact (hnl.trans b2).trans a2
      · exact last_append (.inl (last_append (.inr b4) b3)) a3

theorem header_read : NgxReads {} header [] {} := by
  have line : ∀ t, '\n' ∉ t → NgxReads {} ('#' :: t ++ c!"\n") [] {} := fun t ht => (sharp_read ht).trans (nl_read (k := 0) (.inr rfl))
  have h1 := line c!" This config was built from JSON using NGINX crossplane." (by decide)
  have h2 := line c!" If you encounter any bugs please report them here:" (by decide)
  have h3 := line c!" https://github.com/nginxinc/crossplane/issues" (by decide)
  exact ((h1.trans h2).trans h3).trans (nl_read (k := 0) (.inl rfl))

/-- C100.  nginx accepts what `Build` writes, and reads the directives of the tree. -/
theorem C100_build {isPrint : Char → Bool} {o : BuildOptions} (hb : o.builders = []) (he : o.extBuilders = none) {c : Config} (hf : ∀ d, Within d c.parsed → NgxFine isPrint d) {text : Str}
    (h : buildText isPrint c o = some text) : ∃ toks, ngxRead text = some toks ∧ toks.map NgxTok.meaning = ngxTree c.parsed := by
  have hext : ∀ n, (buildSetup o).ext n = none := by
    intro n
    unfold buildSetup
    by_cases hz : o.indent = 0
    · simp only [hz, beq_self_eq_true, if_true, he, Option.isNone_none, applyBuilders, hb, List.foldl_nil]
      simp [BuildOptions.ext]
    · simp only [beq_iff_eq, hz, if_false, he, Option.isNone_none, if_true, applyBuilders, hb, List.foldl_nil]
      simp [BuildOptions.ext, he]
  unfold buildText at h
  obtain ⟨body, hbody, h⟩ := Option.bind_eq_some_iff.mp h
  cases h
  unfold buildBody at hbody
  obtain ⟨b, hblock, hbody⟩ := Option.bind_eq_some_iff.mp hbody
  cases hbody
  obtain ⟨st', a1, a2, a3⟩ := tree_read hext c.parsed hf false 0 0 true 0 {} b hblock (.inl rfl) (fun _ _ => rfl)
  have hlast : (b.getLast? == some '\n') = false := by simpa using a3
  simp only [hlast, Bool.false_eq_true, if_false]
  have hall : NgxReads {} ((if o.header = true then header else []) ++ b) (ngxTree c.parsed) st' := by
    by_cases hh : o.header = true
    · rw [if_pos hh]; exact header_read.trans a2
    · rw [if_neg hh]; exact (NgxReads.nil _).trans a2
  obtain ⟨toks, m, hr⟩ := hall
  refine ⟨toks, ?_, m⟩
  have := hr []
  rw [List.append_nil] at this
  rw [ngxRead, this]
  rcases a1 with rfl | rfl <;> simp [ngxRun]

/-! ## Examples -/

/-- A block with a comment, an `if`, and arguments with blanks, quotes and a tab. -/
def exNgx : List Directive := [blk c!"server" 1 [] [⟨c!"#", 2, [], [], none, none, some c!" {x", false⟩, blk c!"if" 3 [c!"$a", c!"=", c!"b"] [dir c!"return" 4 [c!"200", c!"it's \"a\"\t;"]], dir c!"a" 5 [[]]]]

example : ∃ text toks, buildText (fun c => c ≠ '\t') ⟨c!"n", [], [], exNgx⟩ { header := true } = some text ∧ ngxRead text = some toks ∧
    toks.map NgxTok.meaning = [(c!"server", false), (c!"{", true), (c!"if", false), (c!"($a", false), (c!"=", false), (c!"b)", false), (c!"{", true),
      (c!"return", false), (c!"200", false), (c!"it's \"a\"\t;", false), (c!";", true), (c!"}", true), (c!"a", false), ([], false), (c!";", true), (c!"}", true)] := by
  have hf : ∀ d, Within d exNgx → NgxFine (fun c => c ≠ '\t') d := by
    intro d hd
    unfold NgxFine NgxString NgxChar
    rcases within_cons.mp hd with rfl | ⟨b, e, hd⟩ | hd
    · decide +kernel
    · cases e
      rcases within_cons.mp hd with rfl | ⟨b, e, hd⟩ | hd
      · decide +kernel
      · cases e
      · rcases within_cons.mp hd with rfl | ⟨b, e, hd⟩ | hd
        · decide +kernel
        · cases e
          rcases within_cons.mp hd with rfl | ⟨b, e, hd⟩ | hd
          · decide +kernel
          · cases e
          · exact absurd hd within_nil
        · rcases within_cons.mp hd with rfl | ⟨b, e, hd⟩ | hd
          · decide +kernel
          · cases e
          · exact absurd hd within_nil
    · exact absurd hd within_nil
  cases h : buildText (fun c => c ≠ '\t') ⟨c!"n", [], [], exNgx⟩ { header := true } with
  | none => exact absurd h (by decide +kernel)
  | some text =>
    obtain ⟨toks, h1, h2⟩ := C100_build rfl rfl hf h
    exact ⟨text, toks, rfl, h1, h2⟩

/-! ## What goes wrong without the conditions -/

/-- C100 is false of the code for backslashes: nginx drops one of two. -/
theorem C100_false_backslash : ∃ text toks, buildText (fun _ => true) ⟨c!"n", [], [], [dir c!"a" 1 [c!"b\\\\c d"]]⟩ {} = some text ∧ ngxRead text = some toks ∧
    toks.map NgxTok.meaning = [(c!"a", false), (c!"b\\c d", false), (c!";", true)] :=
  ⟨c!"a \"b\\\\c d\";", [.word c!"a" none, .word c!"b\\\\c d" (some '"'), .special ';'], by decide +kernel, by decide +kernel, by decide +kernel⟩

/-- C100 is false of the code for characters that cannot be printed: nginx does not know the escapes of Go. -/
theorem C100_false_escape : ∃ text toks, buildText (fun c => c ≠ '\u00a0') ⟨c!"n", [], [], [dir c!"a" 1 [c!"\u00a0"]]⟩ {} = some text ∧ ngxRead text = some toks ∧
    toks.map NgxTok.meaning = [(c!"a", false), (c!"\\u00a0", false), (c!";", true)] :=
  ⟨c!"a \"\\u00a0\";", [.word c!"a" none, .word c!"\\u00a0" (some '"'), .special ';'], by decide +kernel, by decide +kernel, by decide +kernel⟩

/-- C100 is false of the code for a number sign: the argument and the end of the statement become a comment, and nginx rejects the file. -/
theorem C100_false_sharp : ∃ text, buildText (fun _ => true) ⟨c!"n", [], [], [dir c!"a" 1 [c!"#b"]]⟩ {} = some text ∧ ngxRead text = none :=
  ⟨c!"a #b;", by decide +kernel, by decide +kernel⟩

/-- C100 is false of the code for an `if` whose first argument is written with quotes. -/
theorem C100_false_if : ∃ text toks, buildText (fun _ => true) ⟨c!"n", [], [], [blk c!"if" 1 [c!"a b"] []]⟩ {} = some text ∧ ngxRead text = some toks ∧
    toks.map NgxTok.meaning = [(c!"if", false), (c!"(\"a", false), (c!"b\")", false), (c!"{", true), (c!"}", true)] :=
  ⟨c!"if (\"a b\") {\n}", [.word c!"if" none, .word c!"(\"a" none, .word c!"b\")" none, .special '{', .special '}'], by decide +kernel, by decide +kernel, by decide +kernel⟩

end Verif
