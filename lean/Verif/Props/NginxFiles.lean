import Verif.Props.NginxFormat
/-!
# C100: nginx reads the files that BuildFiles writes
-/
namespace Verif
open Spec

/-- If a file may end after blanks, it may end before them; there is nothing to read in them. -/
theorem ngx_blanks : ∀ (w : Str) {st : NgxSt} {toks : List NgxTok}, (∀ c ∈ w, isSpaceRune c = true) → NgxInv st → ngxRun st w = some toks →
    toks = [] ∧ (st.pos = .blank ∨ st.pos = .comment) ∧ st.args = 0 ∧ st.depth = 0
  | [], st, toks, _, _, h => by
    unfold ngxRun at h
    split at h
    · rename_i hp; cases h; exact ⟨rfl, hp⟩
    · cases h
  | c :: w, st, toks, hw, hi, h => by
    rw [ngxRun, Option.bind_eq_some_iff] at h
    obtain ⟨⟨o, st'⟩, h1, h2⟩ := h
    obtain ⟨r, h3, rfl⟩ := Option.map_eq_some_iff.mp h2
    obtain ⟨rfl, g1, g2, g3⟩ := ngx_blanks w (fun c hc => hw c (.tail _ hc)) (ngx_order_step hi h1).1 h3
    have hc := hw c (.head _)
    have ne : ∀ x, isSpaceRune x = false → c ≠ x := fun x hx e => by rw [e, hx] at hc; cases hc
    have n1 : ¬ (c = ';' ∨ c = '{') := by rintro (e | e); exacts [ne _ (by decide) e, ne _ (by decide) e]
    have n2 : c ≠ '}' := ne _ (by decide)
    have n3 : c ≠ '#' := ne _ (by decide)
    have n4 : c ≠ ')' := ne _ (by decide)
    have start : ngxStart st c = some (o, st') → o = [] ∧ st.args = 0 ∧ st.depth = 0 := by
      intro h1
      unfold ngxStart at h1
      rw [if_neg n1, if_neg n2, if_neg n3] at h1
      split_ifs at h1
      · cases h1; exact ⟨rfl, g2, g3⟩
      all_goals (cases h1; rcases g1 with g1 | g1 <;> cases g1)
    obtain ⟨pos, raw, esc, var, args, depth⟩ := st
    cases pos with
    | comment =>
      simp only [ngxStep] at h1
      cases h1
      split at g2
      · rename_i e; rw [if_pos e] at g3; exact ⟨rfl, .inr rfl, g2, g3⟩
      · rename_i e; rw [if_neg e] at g3; exact ⟨rfl, .inr rfl, g2, g3⟩
    | need =>
      simp only [ngxStep, if_neg n1, if_neg n4] at h1
      split at h1
      · cases h1; exact absurd g2 (hi rfl)
      · cases h1
    | blank =>
      obtain ⟨rfl, e1, e2⟩ := start h1
      exact ⟨rfl, .inl rfl, e1, e2⟩
    | word =>
      simp only [ngxStep, if_neg n1] at h1
      split_ifs at h1
      all_goals (cases h1; first | (rcases g1 with g1 | g1 <;> cases g1; done) | exact absurd g2 (Nat.succ_ne_zero _))
    | quoted q =>
      simp only [ngxStep] at h1
      split_ifs at h1
      all_goals (cases h1; rcases g1 with g1 | g1 <;> cases g1)

/-- The state after the first part of a text. -/
theorem ngx_parts : ∀ (t : Str) {w : Str} {st : NgxSt} {toks : List NgxTok}, NgxInv st → ngxRun st (t ++ w) = some toks →
    ∃ st' o r, toks = o ++ r ∧ NgxInv st' ∧ ngxRun st' w = some r ∧ ∀ w' r', ngxRun st' w' = some r' → ngxRun st (t ++ w') = some (o ++ r')
  | [], w, st, toks, hi, h => ⟨st, [], toks, rfl, hi, h, fun _ _ h => h⟩
  | c :: t, w, st, toks, hi, h => by
    rw [List.cons_append, ngxRun, Option.bind_eq_some_iff] at h
    obtain ⟨⟨o, st1⟩, h1, h2⟩ := h
    obtain ⟨r, h3, rfl⟩ := Option.map_eq_some_iff.mp h2
    obtain ⟨st', o', r', rfl, g1, g2, g3⟩ := ngx_parts t (ngx_order_step hi h1).1 h3
    refine ⟨st', o ++ o', r', by rw [List.append_assoc], g1, g2, fun w' x hx => ?_⟩
    rw [List.cons_append, ngxRun, h1, Option.bind_some, g3 w' x hx, Option.map_some, List.append_assoc]

/-- Blanks at the end of a file, Unicode blanks included, can be replaced by a line feed. -/
theorem ngx_trimmed {t w : Str} (hw : ∀ c ∈ w, isSpaceRune c = true) {toks : List NgxTok} (h : ngxRead (t ++ w) = some toks) : ngxRead (t ++ c!"\n") = some toks := by
  obtain ⟨st, o, r, rfl, h1, h2, h3⟩ := ngx_parts t (st := {}) (fun x => by cases x) h
  obtain ⟨rfl, g1, g2, g3⟩ := ngx_blanks w hw h1 h2
  refine h3 _ _ ?_
  obtain ⟨pos, raw, esc, var, args, depth⟩ := st
  simp only at g1 g2 g3
  subst g2 g3
  rcases g1 with rfl | rfl <;> rfl

theorem buildText_full {isPrint : Char → Bool} {o : BuildOptions} (h : 0 ≤ o.indent) (c : Config) : buildText isPrint c o = some (fullText isPrint o c) := by
  unfold buildText fullText
  rw [C45_body isPrint o h c.parsed]
  rfl

/-- C100 for `BuildFiles`: for every config a file is written, at its path, and nginx accepts it and reads the directives of the config, up to the first operation that fails (`runFs`). -/
theorem C100_files {σ : Type} {isPrint : Char → Bool} (os : OS σ) (s : σ) {payload : Payload} {dir : Str} {o : BuildOptions} (h : 0 ≤ o.indent) (hb : o.builders = [])
    (ho : o.extBuilders = none) (hd : dir ≠ []) (hf : ∀ c ∈ payload.config, ∀ d, Within d c.parsed → NgxFine isPrint d) :
    ∃ ops, List.Forall₂ (fun c ops => ∃ path text toks, path = (if os.isAbs c.file = true then c.file else os.join dir c.file) ∧
        ops = [.mkdir (os.dir path), .create path, .write path text, .close path] ∧ ngxRead text = some toks ∧ toks.map NgxTok.meaning = ngxTree c.parsed) payload.config ops ∧
      BuildFiles isPrint os s payload dir o = some (runFs os ops.flatten s) := by
  obtain ⟨ops, h1, h2⟩ := C47 isPrint os s payload dir o h ho hd
  refine ⟨ops, ?_, h2⟩
  generalize payload.config = cs at h1 hf
  clear h2
  induction h1 with
  | nil => exact .nil
  | @cons c op cs ops h3 _ ih =>
    refine .cons ?_ (ih fun c hc => hf c (.tail _ hc))
    obtain ⟨path, text, e1, ⟨⟨w, e2, hw⟩, -⟩, e3⟩ := h3
    obtain ⟨toks, r1, r2⟩ := C100_build hb ho (hf c (.head _)) (buildText_full h c)
    rw [e2] at r1
    exact ⟨path, _, toks, e1, e3, ngx_trimmed hw r1, r2⟩

/-- C100 for `BuildInto` and strings: one string per config, which nginx reads. -/
theorem C100_strings {isPrint : Char → Bool} (files : List FileString) {configs : List Config} {o : BuildOptions} (h : 0 ≤ o.indent) (hb : o.builders = []) (ho : o.extBuilders = none)
    (hf : ∀ c ∈ configs, ∀ d, Within d c.parsed → NgxFine isPrint d) :
    ∃ o' new, BuildInto isPrint stringsCreator files o configs = some (none, files ++ new, o') ∧
      List.Forall₂ (fun c f => f.name = c.file ∧ ∃ toks, ngxRead f.w = some toks ∧ toks.map NgxTok.meaning = ngxTree c.parsed) configs new := by
  obtain ⟨o', h1⟩ := C46_strings isPrint files configs o h
  refine ⟨o', _, h1, ?_⟩
  clear h1
  induction configs with
  | nil => exact .nil
  | cons c configs ih =>
    obtain ⟨toks, r1, r2⟩ := C100_build hb ho (hf c (.head _)) (buildText_full h c)
    refine .cons ⟨rfl, toks, ?_, r2⟩ (ih fun c hc => hf c (.tail _ hc))
    exact ngx_trimmed (w := []) (fun _ hx => absurd hx List.not_mem_nil) (by rw [List.append_nil]; exact r1)

/-- The tree of the example: a comment that ends in blanks, the last one not an ASCII blank. -/
def exNgxFile : List Directive := [dir c!"a" 1 [c!"b c"], ⟨c!"#", 2, [], [], none, none, some c!"x  \u00a0", false⟩]

example : ∃ ops, List.Forall₂ (fun (c : Config) ops => ∃ path text toks, path = (if exOS.isAbs c.file = true then c.file else exOS.join c!"/d" c.file) ∧
      ops = [.mkdir (exOS.dir path), .create path, .write path text, .close path] ∧ ngxRead text = some toks ∧ toks.map NgxTok.meaning = ngxTree c.parsed) [⟨c!"f", [], [], exNgxFile⟩] ops ∧
    BuildFiles (fun _ => true) exOS [] { config := [⟨c!"f", [], [], exNgxFile⟩] } c!"/d" {} = some (runFs exOS ops.flatten []) := by
  refine C100_files (payload := { config := [⟨c!"f", [], [], exNgxFile⟩] }) (dir := c!"/d") (o := {}) exOS [] (by decide) rfl rfl (by decide) ?_
  intro c hc d hd
  obtain rfl := List.mem_singleton.mp hc
  unfold NgxFine NgxString NgxChar
  rcases within_cons.mp hd with rfl | ⟨b, e, hd⟩ | hd
  · decide +kernel
  · cases e
  · rcases within_cons.mp hd with rfl | ⟨b, e, hd⟩ | hd
    · decide +kernel
    · cases e
    · exact absurd hd within_nil

example : BuildFiles (fun _ => true) exOS [] { config := [⟨c!"f", [], [], exNgxFile⟩] } c!"/d" {} = some (none, [(c!"/d/f", c!"a \"b c\";\n#x\n")]) ∧
    (ngxRead c!"a \"b c\";\n#x\n").map (·.map NgxTok.meaning) = some (ngxTree exNgxFile) := by decide +kernel

theorem forall₂_at {α β : Type} {R : α → β → Prop} {l : List α} {m : List β} (h : List.Forall₂ R l m) : ∀ {n : Nat} {a : α}, l[n]? = some a → ∃ b, m[n]? = some b ∧ R a b := by
  induction h with
  | nil => intro n a e; simp at e
  | cons h1 _ ih =>
    intro n a e
    cases n with
    | zero => cases e; exact ⟨_, rfl, h1⟩
    | succ n => exact ih e

/-- C101 for whole configurations: what `BuildFiles` writes for a payload is, file by file, read by nginx as the files the payload was parsed from (under the conditions of `C101_format`
for this file), up to the first operation that fails (`runFs`). -/
theorem C101_files {σ : Type} {isPrint : Char → Bool} (os : OS σ) (s : σ) {env : Env} {fuel : Nat} {filename : Str} {o : ParseOptions} {p : Payload} (h : Parse env fuel filename o = .ok p)
    (hlex : o.lexers = []) (hi : o.ignoreDirectives = []) (hcomb : o.combineConfigs = false) (hs : p.status = c!"ok")
    {dir : Str} {bo : BuildOptions} (hn : 0 ≤ bo.indent) (hb : bo.builders = []) (he : bo.extBuilders = none) (hd : dir ≠ []) :
    ∃ ops : List (List FsOp), BuildFiles isPrint os s p dir bo = some (runFs os ops.flatten s) ∧ ops.length = p.config.length ∧ ∀ n c, p.config[n]? = some c →
      ∃ data path text, ParsesFile env o filename n c.file data ∧ path = (if os.isAbs c.file = true then c.file else os.join dir c.file) ∧
        ops[n]? = some [.mkdir (os.dir path), .create path, .write path text, .close path] ∧
        ∀ toks, ngxRead data.runes = some toks → LineEnds data.runes → (∀ w q, .word w q ∈ toks → NgxParam isPrint w q) → IfGood isPrint (toks.map NgxTok.meaning) →
          (∀ d, Within d c.parsed → d.directive = c!"if" → d.isMapBlockParameter = false) →
          ∃ toks', ngxRead text = some toks' ∧ toks'.map NgxTok.meaning = toks.map NgxTok.meaning := by
  obtain ⟨ops, h1, h2⟩ := C47 isPrint os s p dir bo hn he hd
  refine ⟨ops, h2, h1.length_eq.symm, fun n c hc => ?_⟩
  obtain ⟨op, e, path, text, e1, ⟨⟨w, e2, hw⟩, -⟩, e3⟩ := forall₂_at h1 hc
  obtain ⟨data, g1, g2⟩ := C101_format h hlex hi hcomb hs hc
  refine ⟨data, path, text ++ c!"\n", g1, e1, by rw [e, e3], fun toks hr hl hp hif hmap => ?_⟩
  obtain ⟨toks', r1, r2⟩ := g2 isPrint toks hr hl hp hif hmap bo _ hb he (buildText_full hn c)
  rw [e2] at r1
  exact ⟨toks', ngx_trimmed hw r1, r2⟩

/-- A file is parsed and written to another directory; nginx reads the same. -/
example : ∃ p, Parse (exEnv [(c!"f", c!"z{ a 'b c' ; # x \n}")]) 2 c!"f" exOpts = .ok p ∧
    BuildFiles (fun _ => true) exOS [] p c!"/d" {} = some (none, [(c!"/d/f", c!"z {\n    a \"b c\";\n}\n")]) ∧
    (ngxRead c!"z{ a 'b c' ; # x \n}").map (·.map NgxTok.meaning) = (ngxRead c!"z {\n    a \"b c\";\n}\n").map (·.map NgxTok.meaning) ∧
    ngxRead c!"z{ a 'b c' ; # x \n}" ≠ none :=
  ⟨okPayload [(c!"f", [blk c!"z" 1 [] [Verif.dir c!"a" 1 [c!"b c"]]])], by decide +kernel, by decide +kernel, by decide +kernel, by decide +kernel⟩

end Verif
