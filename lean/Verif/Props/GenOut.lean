import Verif.Model.GenOut
import Verif.Spec.GoTok
import Verif.Props.Gen
import Verif.Props.GenSrc
/-!
# C60, C61: the generator's output and its command line
-/
namespace Verif
open Spec

/-! ## Reading Go text piece by piece -/

/-- Reading `s` in state `a` gives the tokens and the next state. -/
def ReadsGo (a : GoState) (s : Str) (ts : List GoTok) (b : GoState) : Prop := goRun a s = (ts, b)

instance (a : GoState) (s : Str) (ts : List GoTok) (b : GoState) : Decidable (ReadsGo a s ts b) := by unfold ReadsGo; infer_instance

theorem ReadsGo.append {a b c : GoState} {s t : Str} {ts us : List GoTok} (h : ReadsGo a s ts b) (h' : ReadsGo b t us c) : ReadsGo a (s ++ t) (ts ++ us) c := by
  induction s generalizing a ts with
  | nil =>
    simp only [ReadsGo, goRun, Prod.mk.injEq] at h
    obtain ⟨rfl, rfl⟩ := h
    exact h'
  | cons x s ih =>
    simp only [ReadsGo, goRun, Prod.mk.injEq] at h
    obtain ⟨rfl, h2⟩ := h
    have := ih (a := (goStep a x).2) (ts := (goRun (goStep a x).2 s).1) (Prod.ext rfl h2)
    simp only [ReadsGo] at this
    simp only [ReadsGo, List.cons_append, goRun, this, List.append_assoc]

theorem ReadsGo.nil (a : GoState) : ReadsGo a [] [] a := rfl

theorem letter_plain {c : Char} (h : goLetter c = true) : c ≠ '\n' ∧ c ≠ ' ' ∧ c ≠ '\t' ∧ c ≠ '\r' ∧ c ≠ '/' ∧ c ≠ ':' ∧ c ≠ '"' := by
  refine ⟨?_, ?_, ?_, ?_, ?_, ?_, ?_⟩ <;> rintro rfl <;> revert h <;> decide

theorem reads_letters {s w : Str} {d : Bool} (h : ∀ c ∈ s, goLetter c = true) : ReadsGo ⟨.word w, false⟩ s [] ⟨.word (w ++ s), false⟩ := by
  induction s generalizing w with
  | nil => simp [ReadsGo, goRun]
  | cons c s ih =>
    have := ih (w := w ++ [c]) (fun x hx => h x (by simp [hx]))
    simp only [ReadsGo] at this
    simp only [ReadsGo, goRun, goStep, h c (by simp), if_true, this]
    simp

theorem reads_word {s : Str} {d : Bool} (h : GoName s) : ReadsGo ⟨.base, d⟩ s [] ⟨.word s, false⟩ := by
  obtain ⟨hne, hl, -⟩ := h
  obtain ⟨c, s, rfl⟩ := List.exists_cons_of_ne_nil hne
  have hc := hl c (by simp)
  obtain ⟨h1, h2, h3, h4, h5, h6, h7⟩ := letter_plain hc
  have := reads_letters (w := [c]) (d := d) (fun x hx => hl x (List.mem_cons_of_mem c hx))
  simp only [ReadsGo] at this
  simp only [ReadsGo, goRun, goStep, goBase, beq_iff_eq, h1, h2, h3, h4, h5, h6, h7, hc, Bool.or_eq_true, or_self, if_true, if_false, this]
  simp

theorem reads_end {w : Str} (h : GoName w) {c : Char} {s : Str} {ts : List GoTok} {b : GoState} (hc : goLetter c = false) (hr : ReadsGo ⟨.base, true⟩ (c :: s) ts b) :
    ReadsGo ⟨.word w, false⟩ (c :: s) (.word w :: ts) b := by
  have he : (GoTok.word w).ends = true := by simpa [GoTok.ends] using h.2.2
  simp only [ReadsGo, goRun, goStep, Prod.mk.injEq] at hr ⊢
  rw [hc, he]
  exact ⟨by simp [← hr.1], hr.2⟩

theorem reads_string {s w : Str} (h : GoPlain s) : ReadsGo ⟨.str w, false⟩ s [] ⟨.str (w ++ s), false⟩ := by
  induction s generalizing w with
  | nil => simp [ReadsGo, goRun]
  | cons c s ih =>
    obtain ⟨h1, h2, h3⟩ := h c (by simp)
    have := ih (w := w ++ [c]) (fun x hx => h x (by simp [hx]))
    simp only [ReadsGo] at this
    simp only [ReadsGo, goRun, goStep, beq_iff_eq, h1, h2, h3, Bool.or_eq_true, or_self, if_false, this]
    simp

theorem reads_comment {s : Str} {d : Bool} (h : '\n' ∉ s) : ReadsGo ⟨.line, d⟩ s [] ⟨.line, d⟩ := by
  induction s with
  | nil => rfl
  | cons c s ih =>
    have h1 : c ≠ '\n' := fun e => h (by simp [e])
    have := ih (fun hx => h (by simp [hx]))
    simp only [ReadsGo] at this
    simp only [ReadsGo, goRun, goStep, beq_iff_eq, h1, if_false, this]
    simp

/-! ## Escaping -/

/-- No character is changed by HTML escaping. -/
def HtmlPlain (s : Str) : Prop := ∀ c ∈ s, c ∉ c!"\x00\"&'+<>"

theorem escape_plain {s : Str} (h : HtmlPlain s) : htmlEscape s = s := by
  unfold htmlEscape
  induction s with
  | nil => rfl
  | cons c s ih =>
    have hc := h c (by simp)
    simp only [List.mem_cons, List.not_mem_nil, or_false, not_or] at hc
    rw [List.flatMap_cons, ih (fun x hx => h x (by simp [hx]))]
    simp [htmlChar, hc]

theorem letters_html {s : Str} (h : ∀ c ∈ s, goLetter c = true) : HtmlPlain s := by
  intro c hc hm
  have := h c hc
  simp only [List.mem_cons, List.not_mem_nil, or_false] at hm
  rcases hm with rfl | rfl | rfl | rfl | rfl | rfl | rfl <;> revert this <;> decide

theorem escape_no_lf {s : Str} (h : '\n' ∉ s) : '\n' ∉ htmlEscape s := by
  intro hm
  obtain ⟨c, hc, hm⟩ := List.mem_flatMap.mp hm
  have hne : c ≠ '\n' := fun e => h (e ▸ hc)
  unfold htmlChar at hm
  repeat' split at hm
  all_goals first
    | (revert hm; decide)
    | exact hne (List.mem_singleton.mp hm).symm

theorem join_html {m : Mask} (h : ∀ x ∈ m, GoName x) : HtmlPlain (joinStr c!" | " m) := by
  induction m using joinStr.induct with
  | case1 => intro c hc; cases hc
  | case2 x => exact letters_html (h x (by simp)).2.1
  | case3 x y ys ih =>
    intro c hc
    rw [joinStr, List.mem_append, List.mem_append] at hc
    rcases hc with (hc | hc) | hc
    · exact letters_html (h x (by simp)).2.1 c hc
    · simp only [List.mem_cons, List.not_mem_nil, or_false] at hc
      rcases hc with rfl | rfl | rfl <;> decide
    · exact ih (fun z hz => h z (by simp only [List.mem_cons] at hz ⊢; exact Or.inr hz)) c hc

/-! ## The file -/

theorem reads_or {m : Mask} {d : Bool} (hne : m ≠ []) (h : ∀ x ∈ m, GoName x) : ReadsGo ⟨.base, d⟩ (joinStr c!" | " m ++ c!",") (orTokens m ++ [.sign ',']) {} := by
  induction m using joinStr.induct generalizing d with
  | case1 => exact absurd rfl hne
  | case2 x =>
    have hx := h x (by simp)
    exact (reads_word hx).append (reads_end hx (by decide) (ts := [.sign ',']) (b := {}) (by decide))
  | case3 x y ys ih =>
    have hx := h x (by simp)
    have h1 := ((reads_word (d := d) hx).append (reads_end hx (by decide) (c := ' ') (s := c!"| ") (ts := [.sign '|']) (b := {}) (by decide))).append
      (ih (d := false) (by simp) (fun z hz => h z (by simp only [List.mem_cons] at hz ⊢; exact Or.inr hz)))
    rw [joinStr, orTokens]
    simpa using h1

theorem reads_mask {m : Mask} (hne : m ≠ []) (h : ∀ x ∈ m, GoName x) : ReadsGo {} (outMask m) (orTokens m ++ [.sign ',']) {} := by
  unfold outMask
  rw [escape_plain (join_html h), List.append_assoc]
  exact ReadsGo.append (ts := []) (b := {}) (by decide) (reads_or hne h)

theorem reads_flatMap {α : Type} {f : α → Str} {g : α → List GoTok} {l : List α} (h : ∀ x ∈ l, ReadsGo {} (f x) (g x) {}) : ReadsGo {} (l.flatMap f) (l.flatMap g) {} := by
  induction l with
  | nil => rfl
  | cons x l ih => exact (h x (by simp)).append (ih fun y hy => h y (by simp [hy]))

/-- What an entry needs: a name that is written as it is, masks with Go names. -/
def EntryOk (e : Str × List Mask) : Prop := HtmlPlain e.1 ∧ GoPlain e.1 ∧ ∀ m ∈ e.2, m ≠ [] ∧ ∀ x ∈ m, GoName x

theorem reads_entry {e : Str × List Mask} (h : EntryOk e) : ReadsGo {} (outEntry e) (entryTokens e) {} := by
  obtain ⟨h1, h2, h3⟩ := h
  unfold outEntry
  rw [escape_plain h1]
  have a1 : ReadsGo {} c!"\n    \"" [] ⟨.str [], false⟩ := by decide
  have a2 := reads_string (w := []) h2
  have a3 : ReadsGo ⟨.str e.1, false⟩ c!"\": {" [.str e.1, .sign ':', .sign '{'] {} := by
    simp [ReadsGo, goRun, goStep, goBase, GoTok.ends]
    decide
  have a4 := reads_flatMap (f := outMask) (g := fun m => orTokens m ++ [.sign ',']) (fun m hm => reads_mask (h3 m hm).1 (h3 m hm).2)
  have a5 : ReadsGo {} c!"\n    }," [.sign '}', .sign ','] {} := by decide
  have := (((a1.append a2).append a3).append a4).append a5
  simpa [entryTokens] using this

theorem reads_header : ReadsGo {} outHeader [.word c!"package", .word c!"crossplane", .semi, .word c!"var"] {} := by
  unfold outHeader
  decide +kernel

/-- **C60**.  The generated file, read as Go, declares the table with exactly the names and masks of the map, in the order of the names, and the function that
looks up a name in it. -/
theorem C60_tokens {cfg : GenConfig} {m : MaskMap} (h1 : GoName cfg.mapName) (h2 : GoName cfg.funcName) (h3 : '\n' ∉ cfg.comment) (h4 : ∀ e ∈ sortMap m, EntryOk e) :
    goTokens (outFile cfg m) = tableTokens cfg.mapName cfg.funcName (sortMap m) := by
  have b1 := (reads_header.append (reads_word h1)).append (reads_end h1 (c := ' ') (s := c!"= map[string][]uint{")
    (ts := [.sign '=', .word c!"map", .sign '[', .word c!"string", .sign ']', .sign '[', .sign ']', .word c!"uint", .sign '{']) (b := {}) (by decide) (by decide))
  have b2 := (b1.append (reads_flatMap fun e he => reads_entry (h4 e he))).append (show ReadsGo {} c!"\n}\n\n" [.sign '}', .semi] {} by decide)
  have b3 : ReadsGo {} ((if cfg.comment != [] then c!"// " ++ htmlEscape cfg.comment else []) ++ c!"\nfunc ") [.word c!"func"] {} := by
    split
    · exact ((show ReadsGo {} c!"// " [] ⟨.line, false⟩ by decide).append (reads_comment (escape_no_lf h3))).append
        (show ReadsGo ⟨.line, false⟩ c!"\nfunc " [.word c!"func"] {} by decide)
    · exact (show ReadsGo {} c!"\nfunc " [.word c!"func"] {} by decide)
  have b4 := ((b2.append b3).append (reads_word h2)).append (reads_end h2 (c := '(') (s := c!"directive string) ([]uint, bool) {\n    m, ok := ")
    (ts := [.sign '(', .word c!"directive", .word c!"string", .sign ')', .sign '(', .sign '[', .sign ']', .word c!"uint",
      .sign ',', .word c!"bool", .sign ')', .sign '{', .word c!"m", .sign ',', .word c!"ok", .define]) (b := {}) (by decide) (by decide))
  have b5 := (b4.append (reads_word h1)).append (reads_end h1 (c := '[') (s := c!"directive]\n    return m, ok\n}\n\n")
    (ts := [.sign '[', .word c!"directive", .sign ']', .semi, .word c!"return", .word c!"m", .sign ',', .word c!"ok", .semi, .sign '}', .semi]) (b := {}) (by decide) (by decide))
  unfold ReadsGo at b5
  unfold goTokens outFile
  rw [escape_plain (letters_html h1.2.1), escape_plain (letters_html h2.2.1)]
  simp only [List.append_assoc, List.cons_append, List.nil_append] at b5 ⊢
  rw [b5]
  simp [tableTokens]

/-! ### The order of the entries -/

theorem strLe_total (a b : Str) : strLe a b = true ∨ strLe b a = true := by
  induction a generalizing b with
  | nil => exact Or.inl rfl
  | cons x s ih =>
    cases b with
    | nil => exact Or.inr rfl
    | cons y t =>
      unfold strLe
      by_cases h : x = y
      · subst h; simpa using ih t
      · have h' : ¬ y = x := fun e => h e.symm
        simp only [beq_iff_eq, h, h', if_false, decide_eq_true_eq]
        have : x.val ≠ y.val := fun e => h (Char.ext e)
        rcases UInt32.lt_or_lt_of_ne this with h | h
        · exact Or.inl h
        · exact Or.inr h

theorem strLe_antisymm {a b : Str} (h : strLe a b = true) (h' : strLe b a = true) : a = b := by
  induction a generalizing b with
  | nil => cases b with | nil => rfl | cons y t => cases h'
  | cons x s ih =>
    cases b with
    | nil => cases h
    | cons y t =>
      unfold strLe at h h'
      by_cases e : x = y
      · subst e
        simp only [beq_self_eq_true, if_true] at h h'
        rw [ih h h']
      · have e' : ¬ y = x := fun q => e q.symm
        simp only [beq_iff_eq, e, e', if_false, decide_eq_true_eq] at h h'
        exact absurd h' (UInt32.lt_asymm h)

theorem strLe_trans {a b c : Str} (h : strLe a b = true) (h' : strLe b c = true) : strLe a c = true := by
  induction a generalizing b c with
  | nil => rfl
  | cons x s ih =>
    cases b with
    | nil => cases h
    | cons y t =>
      cases c with
      | nil => cases h'
      | cons z u =>
        unfold strLe at h h' ⊢
        by_cases e : x = y
        · subst e
          by_cases e2 : x = z
          · subst e2
            simp only [beq_self_eq_true, if_true] at h h' ⊢
            exact ih h h'
          · simp only [beq_self_eq_true, if_true, beq_iff_eq, e2, if_false] at h h' ⊢
            exact h'
        · simp only [beq_iff_eq, e, if_false, decide_eq_true_eq] at h
          by_cases e2 : y = z
          · subst e2
            simpa only [beq_iff_eq, e, if_false, decide_eq_true_eq] using h
          · simp only [beq_iff_eq, e2, if_false, decide_eq_true_eq] at h'
            have hlt := UInt32.lt_trans h h'
            have e3 : ¬ x = z := by rintro rfl; exact absurd hlt (UInt32.lt_irrefl _)
            simpa only [beq_iff_eq, e3, if_false, decide_eq_true_eq] using hlt

theorem insertEntry_perm (e : Str × List Mask) (m : MaskMap) : (insertEntry e m).Perm (e :: m) := by
  induction m with
  | nil => exact List.Perm.refl _
  | cons f m ih =>
    unfold insertEntry
    split
    · exact List.Perm.refl _
    · exact (ih.cons f).trans (List.Perm.swap e f m)

theorem insertEntry_sorted {e : Str × List Mask} {m : MaskMap} (h : m.Pairwise fun a b => strLe a.1 b.1 = true) :
    (insertEntry e m).Pairwise fun a b => strLe a.1 b.1 = true := by
  induction m with
  | nil => simp [insertEntry]
  | cons f m ih =>
    unfold insertEntry
    rw [List.pairwise_cons] at h
    split
    · rename_i hle
      refine List.pairwise_cons.mpr ⟨fun x hx => ?_, List.pairwise_cons.mpr h⟩
      rcases List.mem_cons.mp hx with rfl | hx
      · exact hle
      · exact strLe_trans hle (h.1 x hx)
    · rename_i hle
      refine List.pairwise_cons.mpr ⟨fun x hx => ?_, ih h.2⟩
      rcases List.mem_cons.mp ((insertEntry_perm e m).mem_iff.mp hx) with rfl | hx
      · exact (strLe_total f.1 x.1).resolve_right hle
      · exact h.1 x hx

/-- **C60**.  The entries of the file are those of the map, in ascending order of the names. -/
theorem C60_sorted (m : MaskMap) : (sortMap m).Perm m ∧ (sortMap m).Pairwise fun a b => strLe a.1 b.1 = true := by
  induction m with
  | nil => exact ⟨List.Perm.refl _, List.Pairwise.nil⟩
  | cons e m ih => exact ⟨(insertEntry_perm e _).trans (ih.1.cons e), insertEntry_sorted ih.2⟩

theorem nodup_entries {m : MaskMap} (h : (m.map (·.1)).Nodup) {a b : Str × List Mask} (ha : a ∈ m) (hb : b ∈ m) (he : a.1 = b.1) : a = b := by
  induction m with
  | nil => cases ha
  | cons e m ih =>
    rw [List.map_cons, List.nodup_cons] at h
    rcases List.mem_cons.mp ha with rfl | ha' <;> rcases List.mem_cons.mp hb with rfl | hb'
    · rfl
    · exact absurd (List.mem_map.mpr ⟨b, hb', he.symm⟩) h.1
    · exact absurd (List.mem_map.mpr ⟨a, ha', he⟩) h.1
    · exact ih h.2 ha' hb'

theorem sorted_eq {m n : MaskMap} (hp : m.Perm n) (hk : (m.map (·.1)).Nodup) (h1 : m.Pairwise fun a b => strLe a.1 b.1 = true)
    (h2 : n.Pairwise fun a b => strLe a.1 b.1 = true) : m = n := by
  induction m generalizing n with
  | nil => exact (List.Perm.nil_eq hp).symm ▸ rfl
  | cons e m ih =>
    cases n with
    | nil => exact absurd hp.length_eq (by simp)
    | cons f n =>
      have hef : e = f := by
        have he : e ∈ f :: n := hp.mem_iff.mp (by simp)
        have hf : f ∈ e :: m := hp.mem_iff.mpr (by simp)
        rw [List.pairwise_cons] at h1 h2
        rcases List.mem_cons.mp he with rfl | he
        · rfl
        rcases List.mem_cons.mp hf with rfl | hf
        · rfl
        exact nodup_entries hk (by simp) (by simp [hf]) (strLe_antisymm (h1.1 f hf) (h2.1 e he))
      subst hef
      rw [ih (List.Perm.cons_inv hp) (by rw [List.map_cons, List.nodup_cons] at hk; exact hk.2) (List.pairwise_cons.mp h1).2 (List.pairwise_cons.mp h2).2]

/-- **C60**.  The file does not depend on the order in which the map is kept (Go's maps have none). -/
theorem C60_order {m n : MaskMap} (hp : m.Perm n) (hk : (m.map (·.1)).Nodup) (cfg : GenConfig) : outFile cfg m = outFile cfg n := by
  have : sortMap m = sortMap n :=
    sorted_eq (((C60_sorted m).1.trans hp).trans (C60_sorted n).1.symm) (((C60_sorted m).1.map (·.1)).nodup_iff.mpr hk) (C60_sorted m).2 (C60_sorted n).2
  unfold outFile
  rw [this]

/-! ### The files that are read -/

/-- A path of a C or C++ file. -/
def IsC (path : Str) : Prop := c!".c" <:+ path ∨ c!".cpp" <:+ path

/-- The texts of the C and C++ files, in order, if all of them can be read and no entry is bad. -/
inductive CTexts : List (Str × WalkEntry) → List Str → Prop
  | nil : CTexts [] []
  | dir {p es ts} : CTexts es ts → CTexts ((p, .dir) :: es) ts
  | other {p t es ts} : ¬ IsC p → CTexts es ts → CTexts ((p, .file t) :: es) ts
  | file {p t es ts} : IsC p → CTexts es ts → CTexts ((p, .file (some t)) :: es) (t :: ts)

theorem isC_iff (p : Str) : (hasSuffix p c!".c" || hasSuffix p c!".cpp") = true ↔ IsC p := by
  simp [hasSuffix, IsC, List.isSuffixOf_iff_suffix]

theorem walkAll_texts {es : List (Str × WalkEntry)} {ts : List Str} (h : CTexts es ts) (acc : MaskMap) :
    (∀ files : List MaskMap, ts.map masksFromText = files.map Except.ok → walkAll acc es = .ok (files.foldl mergeFile acc)) ∧
    (∀ (pre : List Str) (files : List MaskMap) t post d m, ts = pre ++ t :: post → pre.map masksFromText = files.map Except.ok → masksFromText t = .error (d, m) →
      walkAll acc es = .error (.mask d m)) := by
  induction h generalizing acc with
  | nil =>
    constructor
    · intro files hf
      cases files with
      | nil => rfl
      | cons _ _ => simp at hf
    · intro pre _ t post d m he _ _
      exact absurd he (by simp)
  | dir _ ih => exact ih acc
  | @other p t es ts hp _ ih =>
    have : walkStep acc p (.file t) = .ok acc := by
      have hb : (hasSuffix p c!".c" || hasSuffix p c!".cpp") = false := by
        rw [Bool.eq_false_iff]; exact fun h => hp ((isC_iff p).mp h)
      simp only [walkStep, hb, Bool.not_false, if_true]
    simp only [walkAll, this]
    exact ih acc
  | @file p t es ts hp _ ih =>
    have hb := (isC_iff p).mpr hp
    constructor
    · intro files hf
      cases files with
      | nil => simp at hf
      | cons f files =>
        simp only [List.map_cons, List.cons.injEq] at hf
        have : walkStep acc p (.file (some t)) = .ok (mergeFile acc f) := by
          simp only [walkStep, hb, Bool.not_true, Bool.false_eq_true, if_false, hf.1]
        simp only [walkAll, this, List.foldl_cons]
        exact (ih _).1 files hf.2
    · intro pre files t' post d m he hf hm
      cases pre with
      | nil =>
        simp only [List.nil_append, List.cons.injEq] at he
        obtain ⟨rfl, rfl⟩ := he
        have : walkStep acc p (.file (some t)) = .error (.mask d m) := by
          simp only [walkStep, hb, Bool.not_true, Bool.false_eq_true, if_false, hm]
        simp only [walkAll, this]
      | cons u pre =>
        cases files with
        | nil => simp at hf
        | cons f files =>
          simp only [List.cons_append, List.cons.injEq] at he
          obtain ⟨rfl, rfl⟩ := he
          simp only [List.map_cons, List.cons.injEq] at hf
          have : walkStep acc p (.file (some t)) = .ok (mergeFile acc f) := by
            simp only [walkStep, hb, Bool.not_true, Bool.false_eq_true, if_false, hf.1]
          simp only [walkAll, this]
          exact (ih _).2 pre files t' post d m rfl hf.2 hm

/-- **C60**.  If all C and C++ files can be read and their masks are known, the output is the file for the map of C53, or the error that there are no directives. -/
theorem C60_generate {es : List (Str × WalkEntry)} {ts : List Str} (h : CTexts es ts) {files : List MaskMap} (hf : ts.map masksFromText = files.map Except.ok)
    (cfg : GenConfig) : generate es cfg = match genMap files cfg.filter cfg.override with
      | none => .error .noDirectives
      | some m => .ok (outFile cfg m) := by
  have := (walkAll_texts h []).1 files hf
  unfold generate getMasksFromPath genMap getMasks
  rw [this]
  by_cases hz : ((files.foldl mergeFile []).length == 0) = true <;> simp [hz]

/-- **C60**.  The first C or C++ file with an unknown mask is the error. -/
theorem C60_unknown {es : List (Str × WalkEntry)} {pre : List Str} {t : Str} {post : List Str} (h : CTexts es (pre ++ t :: post)) {files : List MaskMap}
    (hf : pre.map masksFromText = files.map Except.ok) {d m : Str} (he : masksFromText t = .error (d, m)) (cfg : GenConfig) :
    generate es cfg = .error (.mask d m) := by
  have := (walkAll_texts h []).2 pre files t post d m rfl hf he
  unfold generate getMasksFromPath
  rw [this]

theorem walkAll_append {es es' : List (Str × WalkEntry)} {acc m : MaskMap} (h : walkAll acc es = .ok m) : walkAll acc (es ++ es') = walkAll m es' := by
  induction es generalizing acc with
  | nil => cases h; rfl
  | cons e es ih =>
    rw [List.cons_append, walkAll]
    rw [walkAll] at h
    cases hw : walkStep acc e.1 e.2 with
    | error err => rw [hw] at h; cases h
    | ok m' => rw [hw] at h; exact ih h

/-- **C60**.  An entry that cannot be listed, or a C or C++ file that cannot be read, is the error, if the files before it were all right; what comes after it does not matter. -/
theorem C60_read {es : List (Str × WalkEntry)} {ts : List Str} (h : CTexts es ts) {files : List MaskMap} (hf : ts.map masksFromText = files.map Except.ok)
    {path : Str} {e : WalkEntry} (he : e = .bad ∨ e = .file none ∧ IsC path) (es' : List (Str × WalkEntry)) (cfg : GenConfig) :
    generate (es ++ (path, e) :: es') cfg = .error (.read path) := by
  have hw : walkAll [] (es ++ (path, e) :: es') = .error (.read path) := by
    rw [walkAll_append ((walkAll_texts h []).1 files hf), walkAll]
    rcases he with rfl | ⟨rfl, hp⟩
    · rfl
    · have hb : (hasSuffix path c!".c" || hasSuffix path c!".cpp") = true := (isC_iff path).mpr hp
      simp only [walkStep, hb, Bool.not_true, Bool.false_eq_true, if_false]
  unfold generate getMasksFromPath
  rw [hw]

/-- **C60**.  Text that is not in a C or C++ file does not matter. -/
theorem C60_only_c {es es' : List (Str × WalkEntry)} {ts : List Str} (h : CTexts es ts) (h' : CTexts es' ts) (cfg : GenConfig) : generate es cfg = generate es' cfg := by
  suffices ∀ acc, walkAll acc es = walkAll acc es' by
    unfold generate getMasksFromPath
    rw [this]
  intro acc
  have key : (∃ files : List MaskMap, ts.map masksFromText = files.map Except.ok) ∨
      ∃ (pre : List Str) (files : List MaskMap) (t : Str) (post : List Str) (d m : Str), ts = pre ++ t :: post ∧ pre.map masksFromText = files.map Except.ok ∧ masksFromText t = .error (d, m) := by
    clear h h'
    induction ts with
    | nil => exact Or.inl ⟨[], rfl⟩
    | cons t ts ih =>
      cases ht : masksFromText t with
      | error e => exact Or.inr ⟨[], [], t, ts, e.1, e.2, rfl, rfl, ht⟩
      | ok f =>
        rcases ih with ⟨files, hf⟩ | ⟨pre, files, u, post, d, m, rfl, hf, hu⟩
        · exact Or.inl ⟨f :: files, by simp [ht, hf]⟩
        · exact Or.inr ⟨t :: pre, f :: files, u, post, d, m, rfl, by simp [ht, hf], hu⟩
  rcases key with ⟨files, hf⟩ | ⟨pre, files, t, post, d, m, he, hf, hm⟩
  · rw [(walkAll_texts h acc).1 files hf, (walkAll_texts h' acc).1 files hf]
  · rw [(walkAll_texts h acc).2 _ _ _ _ _ _ he hf hm, (walkAll_texts h' acc).2 _ _ _ _ _ _ he hf hm]

/-! ### From C files to the Go file -/

theorem goName_values : ∀ e ∈ ngxVarNameToGo, GoName e.2 := by
  unfold GoName
  decide +kernel

theorem lookup_mem {k v : Str} {l : List (Str × Str)} (h : l.lookup k = some v) : ∃ e ∈ l, e.2 = v := by
  induction l with
  | nil => cases h
  | cons e l ih =>
    rw [List.lookup_cons] at h
    split at h
    · exact ⟨e, by simp, Option.some.inj h⟩
    · obtain ⟨x, hx, hv⟩ := ih h
      exact ⟨x, by simp [hx], hv⟩

/-- Masks that are written as Go names. -/
def MaskOk (m : Mask) : Prop := m ≠ [] ∧ ∀ x ∈ m, GoName x

theorem translate_ok {t : Str} {m : Mask} (h : translateMask t = .ok m) : MaskOk m := by
  rw [translateMask_ok] at h
  constructor
  · rintro rfl
    exact splitOn1_ne_nil '|' t (List.forall₂_nil_right_iff.mp h)
  · intro x hx
    generalize splitOn1 '|' t = l at h
    induction h with
    | nil => cases hx
    | cons h1 _ ih =>
      rcases List.mem_cons.mp hx with rfl | hx
      · obtain ⟨e, he, rfl⟩ := lookup_mem h1
        exact goName_values e he
      · exact ih hx

/-- All masks of a map. -/
def MapOk (m : MaskMap) : Prop := ∀ e ∈ m, ∀ k ∈ e.2, MaskOk k

theorem append_ok {m : MaskMap} {n : Str} {ks : List Mask} (h : MapOk m) (hk : ∀ k ∈ ks, MaskOk k) : MapOk (m.append n ks) := by
  induction m with
  | nil =>
    intro e he
    rw [MaskMap.append, List.mem_singleton] at he
    subst he
    exact hk
  | cons f m ih =>
    intro e he
    rw [MaskMap.append] at he
    split at he
    · rcases List.mem_cons.mp he with rfl | he
      · intro k hkm
        rcases List.mem_append.mp hkm with hkm | hkm
        · exact h f (by simp) k hkm
        · exact hk k hkm
      · exact h e (by simp [he])
    · rcases List.mem_cons.mp he with rfl | he
      · exact h e (by simp)
      · exact ih (fun x hx => h x (by simp [hx])) e he

theorem append_keys {m : MaskMap} {n : Str} {ks : List Mask} {e : Str × List Mask} (he : e ∈ m.append n ks) : e.1 = n ∨ ∃ f ∈ m, f.1 = e.1 := by
  induction m with
  | nil =>
    rw [MaskMap.append, List.mem_singleton] at he
    exact Or.inl (by rw [he])
  | cons f m ih =>
    rw [MaskMap.append] at he
    split at he
    · rcases List.mem_cons.mp he with rfl | he
      · exact Or.inr ⟨f, by simp, rfl⟩
      · exact Or.inr ⟨e, by simp [he], rfl⟩
    · rcases List.mem_cons.mp he with rfl | he
      · exact Or.inr ⟨e, by simp, rfl⟩
      · rcases ih he with h | ⟨x, hx, h⟩
        · exact Or.inl h
        · exact Or.inr ⟨x, by simp [hx], h⟩

theorem defs_ok {ds : List (Str × Str)} {acc m : MaskMap} (h : masksFromDefs ds acc = .ok m) (ha : MapOk acc) : MapOk m := by
  induction ds generalizing acc with
  | nil => cases h; exact ha
  | cons d ds ih =>
    unfold masksFromDefs at h
    cases ht : translateMask d.2 with
    | error v => rw [ht] at h; cases h
    | ok k =>
      rw [ht] at h
      refine ih h (append_ok ha ?_)
      intro x hx
      rw [List.mem_singleton.mp hx]
      exact translate_ok ht

theorem merge_ok {f acc : MaskMap} (hf : MapOk f) (ha : MapOk acc) : MapOk (mergeFile acc f) ∧
    ∀ e ∈ mergeFile acc f, (∃ x ∈ acc, x.1 = e.1) ∨ ∃ x ∈ f, x.1 = e.1 := by
  unfold mergeFile
  induction f generalizing acc with
  | nil => exact ⟨ha, fun e he => Or.inl ⟨e, he, rfl⟩⟩
  | cons x f ih =>
    obtain ⟨h1, h2⟩ := ih (fun e he => hf e (by simp [he])) (append_ok ha (hf x (by simp)))
    refine ⟨h1, fun e he => ?_⟩
    rcases h2 e he with ⟨y, hy, h⟩ | ⟨y, hy, h⟩
    · rcases append_keys hy with h' | ⟨z, hz, h'⟩
      · exact Or.inr ⟨x, by simp, by rw [← h', h]⟩
      · exact Or.inl ⟨z, hz, by rw [h', h]⟩
    · exact Or.inr ⟨y, by simp [hy], h⟩

theorem merges_ok {fs : List MaskMap} {acc : MaskMap} (hf : ∀ f ∈ fs, MapOk f) (ha : MapOk acc) : MapOk (fs.foldl mergeFile acc) ∧
    ∀ e ∈ fs.foldl mergeFile acc, (∃ x ∈ acc, x.1 = e.1) ∨ ∃ f ∈ fs, ∃ x ∈ f, x.1 = e.1 := by
  induction fs generalizing acc with
  | nil => exact ⟨ha, fun e he => Or.inl ⟨e, he, rfl⟩⟩
  | cons f fs ih =>
    obtain ⟨m1, m2⟩ := merge_ok (hf f (by simp)) ha
    obtain ⟨h1, h2⟩ := ih (fun e he => hf e (by simp [he])) m1
    refine ⟨h1, fun e he => ?_⟩
    rcases h2 e he with ⟨y, hy, h⟩ | ⟨g, hg, y, hy, h⟩
    · rcases m2 y hy with ⟨z, hz, h'⟩ | ⟨z, hz, h'⟩
      · exact Or.inl ⟨z, hz, by rw [h', h]⟩
      · exact Or.inr ⟨f, by simp, z, hz, by rw [h', h]⟩
    · exact Or.inr ⟨g, by simp [hg], y, hy, h⟩

theorem override_mem {ov : MaskMap} {n : Str} {ks : List Mask} (h : ov.lookup n = some ks) : ∃ e ∈ ov, e.2 = ks := by
  induction ov with
  | nil => cases h
  | cons e l ih =>
    rw [List.lookup_cons] at h
    split at h
    · exact ⟨e, by simp, Option.some.inj h⟩
    · obtain ⟨x, hx, hv⟩ := ih h
      exact ⟨x, by simp [hx], hv⟩

theorem genMap_ok {fs : List MaskMap} {filter : List Str} {ov : Option MaskMap} {m : MaskMap} (hf : ∀ f ∈ fs, MapOk f) (ho : ∀ o, ov = some o → MapOk o)
    (h : genMap fs filter ov = some m) : MapOk m ∧ ∀ e ∈ m, ∃ f ∈ fs, ∃ x ∈ f, x.1 = e.1 := by
  obtain ⟨h1, h2⟩ := merges_ok hf (acc := []) (by intro e he; cases he)
  unfold genMap getMasks at h
  obtain ⟨g, hg, rfl⟩ := Option.map_eq_some_iff.mp h
  simp only at hg
  split at hg
  · cases hg
  · obtain rfl := Option.some.inj hg
    have hsub : ∀ e ∈ (if filter.length > 0 then (fs.foldl mergeFile []).filter (fun e => !filter.contains e.1) else fs.foldl mergeFile []), e ∈ fs.foldl mergeFile [] := by
      intro e he
      split at he
      · exact List.mem_of_mem_filter he
      · exact he
    have hk : ∀ e ∈ fs.foldl mergeFile [], ∃ f ∈ fs, ∃ x ∈ f, x.1 = e.1 := by
      intro e he
      rcases h2 e he with ⟨x, hx, -⟩ | h
      · cases hx
      · exact h
    unfold filterOverride
    cases ov with
    | none => exact ⟨fun e he => h1 e (hsub e he), fun e he => hk e (hsub e he)⟩
    | some o =>
      constructor
      · intro e he
        obtain ⟨x, hx, rfl⟩ := List.mem_map.mp he
        unfold overrideEntry
        cases hl : o.lookup x.1 with
        | none => exact h1 x (hsub x hx)
        | some ks =>
          obtain ⟨y, hy, rfl⟩ := override_mem hl
          exact ho o rfl y hy
      · intro e he
        obtain ⟨x, hx, rfl⟩ := List.mem_map.mp he
        obtain ⟨f, hf, y, hy, h⟩ := hk x (hsub x hx)
        refine ⟨f, hf, y, hy, ?_⟩
        unfold overrideEntry
        split <;> exact h

/-- **C60**.  From C files to the Go file: if all C and C++ files can be read and use known masks, their directives have plain names and the override has Go names as
masks, then the output read as Go is the table of C53 - sorted, complete - and the function for it, or there are no directives. -/
theorem C60_file {es : List (Str × WalkEntry)} {ts : List Str} (h : CTexts es ts) {files : List MaskMap} (hf : ts.map masksFromText = files.map Except.ok)
    {cfg : GenConfig} (h1 : GoName cfg.mapName) (h2 : GoName cfg.funcName) (h3 : '\n' ∉ cfg.comment) (ho : ∀ o, cfg.override = some o → MapOk o)
    (hn : ∀ name, Found files name → HtmlPlain name ∧ GoPlain name) {m : MaskMap} (hm : genMap files cfg.filter cfg.override = some m) :
    ∃ out, generate es cfg = .ok out ∧ goTokens out = tableTokens cfg.mapName cfg.funcName (sortMap m) := by
  refine ⟨outFile cfg m, by rw [C60_generate h hf cfg, hm], C60_tokens h1 h2 h3 ?_⟩
  have hfs : ∀ f ∈ files, MapOk f := by
    clear h hn hm
    induction ts generalizing files with
    | nil => cases files with
      | nil => intro f hf; cases hf
      | cons _ _ => simp at hf
    | cons t ts ih =>
      cases files with
      | nil => simp at hf
      | cons f files =>
        simp only [List.map_cons, List.cons.injEq] at hf
        intro g hg
        rcases List.mem_cons.mp hg with rfl | hg
        · exact defs_ok hf.1 (by intro e he; cases he)
        · exact ih hf.2 g hg
  obtain ⟨k1, k2⟩ := genMap_ok hfs ho hm
  intro e he
  have he' := (C60_sorted m).1.mem_iff.mp he
  obtain ⟨f, hf', x, hx, hxe⟩ := k2 e he'
  obtain ⟨p1, p2⟩ := hn e.1 ⟨f, hf', x.2, by rw [← hxe]; exact hx⟩
  exact ⟨p1, p2, k1 e he'⟩

/-! ### Examples -/

/-- A directory with a C file, a header that is not read, and a C++ file. -/
def exEntries : List (Str × WalkEntry) := [
  (c!"src", .dir),
  (c!"src/a.c", .file (some c!"static ngx_command_t a[] = { { ngx_string(\"zeta\"), NGX_HTTP_MAIN_CONF|NGX_CONF_FLAG, 0 }, { ngx_string(\"beta\"), NGX_MAIN_CONF | NGX_CONF_NOARGS, 0 } };")),
  (c!"src/a.h", .file none),
  (c!"src/b.cpp", .file (some c!"static ngx_command_t b[] = { { ngx_string(\"zeta\"), NGX_ANY_CONF|NGX_CONF_1MORE, 0 } };"))]

def exOut : Str := outHeader ++ c!"tab = map[string][]uint{
    \"beta\": {
        ngxMainConf | ngxConfNoArgs,
    },
    \"zeta\": {
        ngxHTTPMainConf | ngxConfFlag,
        ngxAnyConf | ngxConf1More,
    },
}

// Match is.
func Match(directive string) ([]uint, bool) {
    m, ok := tab[directive]
    return m, ok
}
"

instance : DecidableEq (Except GenError Str) := fun
  | .ok a, .ok b => if h : a = b then isTrue (by rw [h]) else isFalse (by intro e; cases e; exact h rfl)
  | .error a, .error b => if h : a = b then isTrue (by rw [h]) else isFalse (by intro e; cases e; exact h rfl)
  | .ok _, .error _ => isFalse (by intro e; cases e)
  | .error _, .ok _ => isFalse (by intro e; cases e)

example : generate exEntries { mapName := c!"tab", funcName := c!"Match", comment := c!"Match is." } = .ok exOut := by decide +kernel

example : goTokens exOut = tableTokens c!"tab" c!"Match" [(c!"beta", [[c!"ngxMainConf", c!"ngxConfNoArgs"]]),
    (c!"zeta", [[c!"ngxHTTPMainConf", c!"ngxConfFlag"], [c!"ngxAnyConf", c!"ngxConf1More"]])] := by decide +kernel

example : generate [(c!"x.c", .file (some c!"ngx_command_t a[] = { ngx_string(\"a\"), NGX_FOO, 0 };"))] {} = .error (.mask c!"a" c!" NGX_FOO") := by decide +kernel
example : generate [(c!"x.h", .file (some c!"ngx_command_t a[] = { ngx_string(\"a\"), NGX_FOO, 0 };"))] {} = .error .noDirectives := by decide +kernel
example : generate [(c!"x.c", .file none)] {} = .error (.read c!"x.c") := by decide +kernel
/-- A directory that cannot be listed. -/
example (es : List (Str × WalkEntry)) : generate ((c!"src", .dir) :: (c!"src/a", .bad) :: es) {} = .error (.read c!"src/a") :=
  C60_read (es := [(c!"src", .dir)]) (ts := []) (.dir .nil) (files := []) rfl (Or.inl rfl) es {}

/-- **C60** is false of names with characters that HTML escapes: the name in the Go file is another one. -/
theorem C60_false : let m : MaskMap := [(c!"a+b", [[c!"ngxMainConf"]])]
    goTokens (outFile { mapName := c!"t", funcName := c!"f" } m) = tableTokens c!"t" c!"f" [(c!"a&#43;b", [[c!"ngxMainConf"]])] := by
  decide +kernel

/-- A comment of two lines is not a comment. -/
theorem C60_false_comment : GoTok.word c!"two" ∈ goTokens (outFile { mapName := c!"t", funcName := c!"f", comment := c!"one\ntwo" } []) := by
  decide +kernel

/-! ## C61: the command line -/

/-- The last override of a name on the command line. -/
def lastOverride (values : List Str) (name : Str) : Option (List Mask) :=
  (values.reverse.findSome? fun v => match parseOverride v with
    | .ok (n, masks) => if n = name then some masks else none
    | .error _ => none)

theorem lookup_set (m : MaskMap) (k : Str) (v : List Mask) (n : Str) : (m.set k v).lookup n = if n = k then some v else m.lookup n := by
  induction m with
  | nil =>
    rw [MaskMap.set, List.lookup_cons]
    by_cases h : n = k
    · simp [h]
    · have : (n == k) = false := by simpa using h
      simp [this, h]
  | cons e m ih =>
    obtain ⟨a, b⟩ := e
    rw [MaskMap.set]
    by_cases hk : a = k
    · simp only [hk, beq_self_eq_true, if_true, List.lookup_cons]
      by_cases h : n = k
      · simp [h]
      · have : (n == k) = false := by simpa using h
        simp [this, h]
    · have hk' : (a == k) = false := by simpa using hk
      simp only [hk', Bool.false_eq_true, if_false, List.lookup_cons, ih]
      by_cases h : n = a
      · subst h; simp [hk]
      · have : (n == a) = false := by simpa using h
        simp [this]

theorem setFilters_spec (acc : Option (List Str)) (vs : List Str) :
    (vs = [] → setFilters acc vs = acc) ∧ (vs ≠ [] → ∃ l, setFilters acc vs = some l ∧ ∀ x, x ∈ l ↔ x ∈ acc.getD [] ∨ x ∈ vs) := by
  induction vs generalizing acc with
  | nil => exact ⟨fun _ => rfl, fun h => absurd rfl h⟩
  | cons v vs ih =>
    refine ⟨fun h => (by cases h), fun _ => ?_⟩
    rw [setFilters]
    have hm : ∀ x, x ∈ (let l := acc.getD []; if l.contains v then l else l ++ [v]) ↔ x ∈ acc.getD [] ∨ x = v := by
      intro x
      show x ∈ (if (acc.getD []).contains v then acc.getD [] else acc.getD [] ++ [v]) ↔ _
      split
      · rename_i hc
        have := List.contains_iff_mem.mp hc
        exact ⟨Or.inl, fun h => h.elim id fun e => e ▸ this⟩
      · simp
    obtain ⟨h1, h2⟩ := ih (some (let l := acc.getD []; if l.contains v then l else l ++ [v]))
    by_cases hv : vs = []
    · subst hv
      refine ⟨_, h1 rfl, fun x => ?_⟩
      rw [hm]; simp
    · obtain ⟨l, hl, hx⟩ := h2 hv
      refine ⟨l, hl, fun x => ?_⟩
      rw [hx, Option.getD_some, hm, List.mem_cons, or_assoc]

theorem lastOverride_cons (v : Str) (vs : List Str) (n : Str) : lastOverride (v :: vs) n = (lastOverride vs n).or (lastOverride [v] n) := by
  unfold lastOverride
  rw [List.reverse_cons, List.findSome?_append]
  simp

theorem setOverrides_spec (acc : Option MaskMap) (vs : List Str) :
    (∀ e, setOverrides acc vs = .error e → ∃ pre v post err, vs = pre ++ v :: post ∧ (∀ w ∈ pre, ∃ r, parseOverride w = .ok r) ∧ parseOverride v = .error err ∧ e = .flag v err) ∧
    (∀ ov, setOverrides acc vs = .ok ov → (∀ w ∈ vs, ∃ r, parseOverride w = .ok r) ∧ (vs = [] → ov = acc) ∧
      (vs ≠ [] → ∃ m, ov = some m ∧ ∀ n, m.lookup n = (lastOverride vs n).or ((acc.getD []).lookup n))) := by
  induction vs generalizing acc with
  | nil =>
    refine ⟨fun e h => (by cases h), fun ov h => ?_⟩
    cases h
    exact ⟨by simp, fun _ => rfl, fun h => absurd rfl h⟩
  | cons v vs ih =>
    unfold setOverrides
    cases hp : parseOverride v with
    | error err =>
      refine ⟨fun e h => ?_, fun ov h => (by cases h)⟩
      cases h
      exact ⟨[], v, vs, err, rfl, by simp, hp, rfl⟩
    | ok item =>
      obtain ⟨i1, i2⟩ := ih (some ((acc.getD []).set item.1 item.2))
      constructor
      · intro e h
        obtain ⟨pre, w, post, err, rfl, h1, h2, h3⟩ := i1 e h
        refine ⟨v :: pre, w, post, err, rfl, ?_, h2, h3⟩
        intro x hx
        rcases List.mem_cons.mp hx with rfl | hx
        · exact ⟨item, hp⟩
        · exact h1 x hx
      · intro ov h
        obtain ⟨h1, h2, h3⟩ := i2 ov h
        have hl : ∀ n, lastOverride [v] n = if item.1 = n then some item.2 else none := by
          intro n
          unfold lastOverride
          simp only [List.reverse_singleton, List.findSome?_cons, List.findSome?_nil, hp]
          by_cases hn : item.1 = n <;> simp [hn]
        refine ⟨?_, fun h => (by cases h), fun _ => ?_⟩
        · intro x hx
          rcases List.mem_cons.mp hx with rfl | hx
          · exact ⟨item, hp⟩
          · exact h1 x hx
        · by_cases hv : vs = []
          · subst hv
            refine ⟨_, h2 rfl, fun n => ?_⟩
            rw [hl, lookup_set]
            by_cases hn : n = item.1
            · simp [hn]
            · have : ¬ item.1 = n := fun e => hn e.symm
              simp [hn, this]
          · obtain ⟨m, hm, hlk⟩ := h3 hv
            refine ⟨m, hm, fun n => ?_⟩
            rw [hlk, lastOverride_cons, hl, Option.getD_some, lookup_set]
            by_cases hn : n = item.1
            · simp [hn, Option.or_assoc]
            · have : ¬ item.1 = n := fun e => hn e.symm
              simp [hn, this]

/-- The configuration before the flags: the file's, if one is given. -/
def baseConfig (flags : GenFlags) (readConfig : Str → Option GenConfig) : Option GenConfig :=
  if flags.configPath = [] then some {} else readConfig flags.configPath

/-- A value of the command line if it is not empty, else that of the configuration. -/
def pick (flag config : Str) : Str := if flag = [] then config else flag

/-- **C61**.  The program runs the generator iff all overrides are well-formed, the configuration file, if given, can be read, and the source path and both names
are given on the command line or, for the names, in the file.  Flags win over the file: each value that is not empty, all filters together, all overrides
together; of several overrides of a name, the last. -/
theorem C61_config (flags : GenFlags) (readConfig : Str → Option GenConfig) (cfg : GenConfig) (h : mainConfig flags readConfig = .ok cfg) :
    ∃ base, baseConfig flags readConfig = some base ∧ (∀ v ∈ flags.overrides, ∃ r, parseOverride v = .ok r) ∧ flags.srcPath ≠ [] ∧
      cfg.mapName ≠ [] ∧ cfg.funcName ≠ [] ∧
      cfg.mapName = pick flags.mapName base.mapName ∧ cfg.funcName = pick flags.funcName base.funcName ∧ cfg.comment = pick flags.comment base.comment ∧
      (∀ x, x ∈ cfg.filter ↔ if flags.filters = [] then x ∈ base.filter else x ∈ flags.filters) ∧
      (if flags.overrides = [] then cfg.override = base.override
       else ∃ m, cfg.override = some m ∧ ∀ n, m.lookup n = lastOverride flags.overrides n) := by
  unfold mainConfig at h
  obtain ⟨-, o2⟩ := setOverrides_spec none flags.overrides
  obtain ⟨f1, f2⟩ := setFilters_spec none flags.filters
  cases ho : setOverrides none flags.overrides with
  | error e => rw [ho] at h; cases h
  | ok ov =>
    rw [ho] at h
    obtain ⟨p1, p2, p3⟩ := o2 ov ho
    simp only at h
    have hb : (if flags.configPath != [] then readConfig flags.configPath else some {}) = baseConfig flags readConfig := by
      unfold baseConfig
      by_cases hc : flags.configPath = [] <;> simp [hc]
    rw [hb] at h
    cases hbc : baseConfig flags readConfig with
    | none => rw [hbc] at h; cases h
    | some base =>
      rw [hbc] at h
      simp only at h
      refine ⟨base, rfl, p1, ?_⟩
      have hov : (flags.overrides = [] ∧ ov = none) ∨ (flags.overrides ≠ [] ∧ ∃ m, ov = some m ∧ ∀ n, m.lookup n = lastOverride flags.overrides n) := by
        by_cases hv : flags.overrides = []
        · exact Or.inl ⟨hv, p2 hv⟩
        · obtain ⟨m, hm, hl⟩ := p3 hv
          exact Or.inr ⟨hv, m, hm, fun n => by rw [hl]; simp⟩
      have hfl : (flags.filters = [] ∧ setFilters none flags.filters = none) ∨
          (flags.filters ≠ [] ∧ ∃ l, setFilters none flags.filters = some l ∧ ∀ x, x ∈ l ↔ x ∈ flags.filters) := by
        by_cases hv : flags.filters = []
        · exact Or.inl ⟨hv, f1 hv⟩
        · obtain ⟨l, hl, hx⟩ := f2 hv
          exact Or.inr ⟨hv, l, hl, fun x => by rw [hx]; simp⟩
      unfold pick
      rcases hov with ⟨e1, rfl⟩ | ⟨e1, m, rfl, e2⟩ <;> rcases hfl with ⟨g1, g2⟩ | ⟨g1, l, g2, g3⟩ <;> rw [g2] at h <;>
        by_cases m1 : flags.mapName = [] <;> by_cases m2 : flags.funcName = [] <;> by_cases m3 : flags.comment = [] <;> by_cases m4 : flags.srcPath = [] <;>
        simp only [m1, m2, m3, m4, e1, g1, bne_self_eq_false, Bool.false_eq_true, if_false, if_true, bne_iff_ne, ne_eq, not_false_eq_true,
          beq_self_eq_true, beq_iff_eq, reduceCtorEq] at h ⊢
      all_goals
        (repeat' split at h) <;> first
          | (cases h; done)
          | (cases h
             refine ⟨trivial, ?_⟩
             simp_all)

/-- **C61**.  Conversely, these conditions are enough. -/
theorem C61_runs (flags : GenFlags) (readConfig : Str → Option GenConfig) {base : GenConfig} (hb : baseConfig flags readConfig = some base)
    (ho : ∀ v ∈ flags.overrides, ∃ r, parseOverride v = .ok r) (hs : flags.srcPath ≠ []) (hm : pick flags.mapName base.mapName ≠ [])
    (hf : pick flags.funcName base.funcName ≠ []) : ∃ cfg, mainConfig flags readConfig = .ok cfg := by
  cases h : mainConfig flags readConfig with
  | ok cfg => exact ⟨cfg, rfl⟩
  | error e =>
    exfalso
    unfold mainConfig at h
    cases hov : setOverrides none flags.overrides with
    | error e =>
      obtain ⟨pre, v, post, err, he, -, hv, -⟩ := (setOverrides_spec none flags.overrides).1 e hov
      obtain ⟨r, hr⟩ := ho v (by rw [he]; simp)
      rw [hr] at hv
      cases hv
    | ok ov =>
      rw [hov] at h
      have hb' : (if flags.configPath != [] then readConfig flags.configPath else some {}) = some base := by
        rw [← hb]
        unfold baseConfig
        by_cases hc : flags.configPath = [] <;> simp [hc]
      simp only [hb'] at h
      unfold pick at hm hf
      cases ov <;> cases setFilters none flags.filters <;>
        by_cases m1 : flags.mapName = [] <;> by_cases m2 : flags.funcName = [] <;> by_cases m3 : flags.comment = [] <;>
        simp only [m1, m2, m3, bne_self_eq_false, Bool.false_eq_true, if_false, if_true, bne_iff_ne, ne_eq, not_false_eq_true, beq_iff_eq, hs] at h hm hf <;>
        (repeat' split at h) <;> simp_all

/-- **C61**.  The first override that is not well-formed ends the program, whatever else is given. -/
theorem C61_bad_override (flags : GenFlags) (readConfig : Str → Option GenConfig) {pre post : List Str} {v : Str} {err : OverrideError}
    (h : flags.overrides = pre ++ v :: post) (hp : ∀ w ∈ pre, ∃ r, parseOverride w = .ok r) (hv : parseOverride v = .error err) :
    mainConfig flags readConfig = .error (.flag v err) := by
  have : ∀ acc, setOverrides acc (pre ++ v :: post) = .error (.flag v err) := by
    clear h
    induction pre with
    | nil => intro acc; simp [setOverrides, hv]
    | cons w pre ih =>
      intro acc
      obtain ⟨r, hr⟩ := hp w (by simp)
      rw [List.cons_append, setOverrides, hr]
      exact ih (fun x hx => hp x (by simp [hx])) _
  unfold mainConfig
  rw [h, this]

/-- The name of the table from the file, the name of the function and the override from the command line, where the second override of `a` wins. -/
example : (mainConfig { srcPath := c!"src", configPath := c!"c.json", funcName := c!"F", overrides := [c!"a:m|n", c!" a : o , p "] }
      (fun _ => some { mapName := c!"t", funcName := c!"g", filter := [c!"x"], override := some [(c!"b", [])] })).toOption.map
        (fun c => (c.mapName, c.funcName, c.filter, c.override)) =
    some (c!"t", c!"F", [c!"x"], some [(c!"a", [[c!"o"], [c!"p"]])]) := by rfl

example : (mainConfig { srcPath := c!"src", configPath := c!"c.json", overrides := [c!"a:m|n", c!"a"] } (fun _ => none)).toOption.isNone = true := by decide

end Verif
