import Verif.Proofs.GenSrc
import Verif.Props.Gen
/-!
# C59: which definitions the generator finds in a C file
-/
namespace Verif
open Spec

/-! ## Comments and line ends -/

theorem lineComment_consumes : Consumes lineCommentRe := consumes_lit (by decide) _
theorem blockComment_consumes : Consumes blockCommentRe := consumes_lit (by decide) _

theorem lineComment_none {s : Str} (h : ¬ c!"//" <+: s) : matchAt lineCommentRe s = none := matchAt_lit_none h
theorem blockComment_none {s : Str} (h : ¬ c!"/*" <+: s) : matchAt blockCommentRe s = none := matchAt_lit_none h

theorem lineComment_match {s t : Str} (hs : '\n' ∉ s) (ht : t = [] ∨ ∃ r, t = '\n' :: r) : matchAt lineCommentRe (c!"//" ++ s ++ t) = some ([], t) := by
  rw [List.append_assoc, lineCommentRe, matchAt_lit]
  rw [matchAt_greedy (r := ([], t)) (fun x hx => by simp [reDot]; rintro rfl; exact hs hx) ?_ (by omega) rfl]
  · rfl
  · intro x hx
    rcases ht with rfl | ⟨r, rfl⟩
    · cases hx
    · cases hx; rfl

theorem blockComment_match {s t : Str} (hs : ¬ c!"*/" <:+: s) : matchAt blockCommentRe (c!"/*" ++ s ++ c!"*/" ++ t) = some ([], t) := by
  rw [List.append_assoc, List.append_assoc, blockCommentRe, matchAt_lit]
  rw [matchAt_lazy (r := ([], t)) (fun _ _ => rfl) ?_ (matchAt_lit _ _ _)]
  · rfl
  · intro k hk
    refine matchAt_lit_none (pair_not_prefix ?_ hk)
    intro h
    rcases pair_infix_append h with h | h | ⟨-, h⟩
    · exact hs h
    · obtain ⟨a, b, e⟩ := h
      have := congrArg List.length e
      simp at this
      omega
    · simp at h

/-- The text of parts. -/
def partsText (ps : List CPart) : Str := ps.flatMap CPart.text

/-- The first character after a part that must not be followed by a slash. -/
theorem after_block {ps : List CPart} (h : ps = [] ∨ ∃ c r qs, ps = .code (c :: r) :: qs ∧ c ≠ '/') : (partsText ps).head? ≠ some '/' := by
  rcases h with rfl | ⟨c, r, qs, rfl, hc⟩
  · simp [partsText]
  · simpa [partsText, CPart.text] using hc

/-- No line comments. -/
def dropLines (ps : List CPart) : List CPart := ps.filter fun | .line _ => false | _ => true

theorem take_one_head {t : Str} {c : Char} (h : t.head? ≠ some c) : c ∉ t.take 1 := by
  cases t with
  | nil => simp
  | cons x t => simp at h ⊢; exact fun e => h e.symm

theorem head_take_one (t : Str) : (t.take 1).head? = t.head? := by cases t <;> rfl

theorem not_infix_append {a b : Char} {u v : Str} (hu : ¬ [a, b] <:+: u) (hv : v.length ≤ 1) (hx : u.getLast? ≠ some a ∨ v.head? ≠ some b) : ¬ [a, b] <:+: u ++ v := by
  intro h
  rcases pair_infix_append h with h | h | ⟨h1, h2⟩
  · exact hu h
  · have := List.IsInfix.length_le h
    simp at this; omega
  · rcases hx with hx | hx
    · exact hx h1
    · exact hx h2

theorem take_one_length (t : Str) : (t.take 1).length ≤ 1 := by rw [List.length_take]; omega

theorem remove_lines {ps : List CPart} (h : PartsOk ps) : removeAll lineCommentRe (partsText ps) = partsText (dropLines ps) := by
  induction ps with
  | nil => rfl
  | cons p ps ih =>
    cases p with
    | code s =>
      obtain ⟨h1, h2, h3, h4⟩ := h
      rw [show partsText (.code s :: ps) = s ++ partsText ps from rfl, removeAll_skip, ih h4]
      · rfl
      · exact fun k hk => lineComment_none (pair_not_prefix (not_infix_append h1 (take_one_length _) (Or.inl h3)) hk)
    | line s =>
      obtain ⟨h1, h2, h3⟩ := h
      have hm : matchAt lineCommentRe (c!"//" ++ s ++ partsText ps) = some ([], partsText ps) := by
        refine lineComment_match h1 ?_
        rcases h2 with rfl | ⟨r, qs, rfl⟩
        · exact Or.inl rfl
        · exact Or.inr ⟨r ++ partsText qs, rfl⟩
      rw [show partsText (.line s :: ps) = c!"//" ++ s ++ partsText ps from rfl, removeAll_match lineComment_consumes hm]
      exact ih h3
    | block s =>
      obtain ⟨h1, h2, h3, h4⟩ := h
      have e : partsText (.block s :: ps) = (c!"/*" ++ s ++ c!"*/") ++ partsText ps := rfl
      rw [e, removeAll_skip, ih h4]
      · rfl
      · refine fun k hk => lineComment_none (pair_not_prefix ?_ hk)
        have h0 : ¬ c!"//" <:+: c!"/*" ++ s ++ c!"*/" := by
          intro h
          rcases pair_infix_append h with h | h | ⟨-, h⟩
          · rcases pair_infix_append h with h | h | ⟨h, -⟩
            · revert h; decide
            · exact h2 h
            · revert h; decide
          · revert h; decide
          · revert h; decide
        refine not_infix_append h0 (take_one_length _) (Or.inr ?_)
        rw [head_take_one]
        exact after_block h3

/-- What is left of well-formed parts when the line comments are gone. -/
theorem remove_blocks {ps : List CPart} (h : PartsOk ps) : removeAll blockCommentRe (partsText (dropLines ps)) = ps.flatMap CPart.codeOf := by
  induction ps with
  | nil => rfl
  | cons p ps ih =>
    cases p with
    | code s =>
      obtain ⟨h1, h2, h3, h4⟩ := h
      rw [show partsText (dropLines (.code s :: ps)) = s ++ partsText (dropLines ps) from rfl, removeAll_skip, ih h4]
      · rfl
      · exact fun k hk => blockComment_none (pair_not_prefix (not_infix_append h2 (take_one_length _) (Or.inl h3)) hk)
    | line s => exact ih h.2.2
    | block s =>
      obtain ⟨h1, h2, h3, h4⟩ := h
      rw [show partsText (dropLines (.block s :: ps)) = c!"/*" ++ s ++ c!"*/" ++ partsText (dropLines ps) from rfl,
        removeAll_match blockComment_consumes (blockComment_match h1)]
      exact ih h4

theorem removeCRLF_line {l t : Str} (hl : '\n' ∉ l) (hr : l.getLast? ≠ some '\r') (t0 : Str) (ht : removeCRLF t = t0) : removeCRLF (l ++ t) = l ++ t0 := by
  induction l with
  | nil => exact ht
  | cons c l ih =>
    have hn : '\n' ∉ l := fun h => hl (by simp [h])
    have ih := ih hn
    rw [List.cons_append]
    have hstep : removeCRLF (c :: (l ++ t)) = c :: removeCRLF (l ++ t) := by
      rw [removeCRLF.eq_def]
      split
      · rename_i h; cases h
      · rename_i s h
        exfalso
        obtain ⟨rfl, h⟩ := List.cons.inj h
        cases l with
        | nil => simp at hr
        | cons d l =>
          rename_i h'
          have := (List.cons.inj h').1
          simp [this] at hn
      · rename_i h
        obtain ⟨rfl, rfl⟩ := List.cons.inj h
        rfl
    rw [hstep]
    cases l with
    | nil => rw [List.nil_append, ht]; rfl
    | cons d l =>
      rw [ih (by simpa using hr)]
      rfl

theorem removeCRLF_lf (t : Str) : removeCRLF ('\n' :: t) = '\n' :: removeCRLF t := by rw [removeCRLF.eq_def]; rfl
theorem removeCRLF_crlf (t : Str) : removeCRLF ('\r' :: '\n' :: t) = removeCRLF t := by rw [removeCRLF.eq_def]; rfl

theorem removeCRLF_last {l : Str} (hl : '\n' ∉ l) : removeCRLF l = l := by
  induction l with
  | nil => rfl
  | cons c l ih =>
    have hn : '\n' ∉ l := fun h => hl (by simp [h])
    rw [removeCRLF.eq_def]
    split
    · rename_i h; cases h
    · rename_i s h
      obtain ⟨rfl, rfl⟩ := List.cons.inj h
      simp at hn
    · rename_i h
      obtain ⟨rfl, rfl⟩ := List.cons.inj h
      rw [ih hn]

theorem removeLF_none {l : Str} (hl : '\n' ∉ l) : removeLF l = l := by
  unfold removeLF
  rw [List.filter_eq_self]
  intro c hc
  simp only [bne_iff_ne, ne_eq]
  rintro rfl
  exact hl hc

theorem remove_ends {ls : List (Str × Bool)} {last : Str} (h : LinesOk ls last) : removeLF (removeCRLF (unlines ls last)) = joined ls last := by
  obtain ⟨h1, h2⟩ := h
  have : ∃ t, removeCRLF (unlines ls last) = t ∧ removeLF t = joined ls last := by
    induction ls with
    | nil => exact ⟨last, removeCRLF_last h2, removeLF_none h2⟩
    | cons l ls ih =>
      obtain ⟨t, ht, hj⟩ := ih fun x hx => h1 x (by simp [hx])
      obtain ⟨hl, hr⟩ := h1 l (by simp)
      have e : unlines (l :: ls) last = l.1 ++ ((if l.2 then c!"\r\n" else c!"\n") ++ unlines ls last) := by simp [unlines]
      have ej : joined (l :: ls) last = l.1 ++ joined ls last := by simp [joined]
      have hf : ∀ u, removeLF u = joined ls last → removeLF (l.1 ++ u) = l.1 ++ joined ls last := by
        intro u hu
        have : removeLF (l.1 ++ u) = removeLF l.1 ++ removeLF u := by simp [removeLF]
        rw [this, removeLF_none hl, hu]
      rw [e, ej]
      cases l.2 with
      | true =>
        refine ⟨l.1 ++ t, removeCRLF_line hl hr _ ?_, hf t hj⟩
        exact (removeCRLF_crlf _).trans ht
      | false =>
        refine ⟨l.1 ++ '\n' :: t, removeCRLF_line hl hr _ ?_, hf _ ?_⟩
        · exact (removeCRLF_lf (unlines ls last)).trans (by rw [ht])
        · rw [← hj]; rfl
  obtain ⟨t, rfl, hj⟩ := this
  exact hj

/-- **C59**.  Comments and line ends of a file are removed. -/
theorem C59_clean {ps : List CPart} (h : PartsOk ps) {ls : List (Str × Bool)} {last : Str} (hl : LinesOk ls last)
    (hc : ps.flatMap CPart.codeOf = unlines ls last) : cleanSource (ps.flatMap CPart.text) = joined ls last := by
  unfold cleanSource
  rw [show ps.flatMap CPart.text = partsText ps from rfl, remove_lines h, remove_blocks h, hc, remove_ends hl]

/-! ## Entries -/

theorem entry_consumes : Consumes entryRe := consumes_lit (by decide) _
theorem block_consumes : Consumes blockRe := consumes_lit (by decide) _

theorem dot_of {s : Str} (h : '\n' ∉ s) : ∀ c ∈ s, reDot c = true := by
  intro c hc
  simp only [reDot, bne_iff_ne, ne_eq]
  rintro rfl
  exact h hc

theorem comma_none {ps : List RePart} {w t : Str} (h : ',' ∉ w) {k : Nat} (hk : k < w.length) : matchAt (.lit c!"," :: ps) (w.drop k ++ t) = none := by
  refine matchAt_lit_none ?_
  rintro ⟨v, hv⟩
  have hne : w.drop k ≠ [] := by rw [ne_eq, List.drop_eq_nil_iff]; omega
  obtain ⟨x, u, hu⟩ := List.exists_cons_of_ne_nil hne
  rw [hu] at hv
  simp only [List.cons_append, List.cons.injEq] at hv
  exact h (List.mem_of_mem_drop (i := k) (by rw [hu, hv.1]; simp))

/-- An entry after its gap. -/
def Spec.CEntry.core (e : CEntry) : Str := entryMark ++ (e.name ++ (c!"\")" ++ (e.junk ++ (c!"," ++ (e.mask ++ c!",")))))

theorem Spec.CEntry.text_eq (e : CEntry) : e.text = e.gap ++ e.core := by simp [CEntry.text, CEntry.core]

theorem entry_match {e : CEntry} (h : e.Ok) (hn : '\n' ∉ e.text) (t : Str) : matchAt entryRe (e.core ++ t) = some ([e.name, e.mask], t) := by
  obtain ⟨-, h2, h3, h4⟩ := h
  simp only [CEntry.text, List.mem_append, not_or] at hn
  obtain ⟨⟨⟨⟨⟨⟨⟨-, -⟩, n1⟩, -⟩, n2⟩, -⟩, n3⟩, -⟩ := hn
  unfold CEntry.core entryRe
  simp only [List.append_assoc]
  rw [show entryMark = c!"ngx_string(\"" from rfl, matchAt_lit]
  have m3 : matchAt [.rep reDot 0 false true, .lit c!","] (e.mask ++ (c!"," ++ t)) = some ([e.mask], t) := by
    rw [matchAt_lazy (r := ([], t)) (dot_of n3) (fun k hk => comma_none h4 hk) (matchAt_lit _ _ _)]
    rfl
  have m2 : matchAt [.rep reDot 0 false false, .lit c!",", .rep reDot 0 false true, .lit c!","] (e.junk ++ (c!"," ++ (e.mask ++ (c!"," ++ t)))) =
      some ([e.mask], t) := by
    rw [matchAt_lazy (r := ([e.mask], t)) (dot_of n2) (fun k hk => comma_none h3 hk) ((matchAt_lit _ _ _).trans m3)]
    rfl
  rw [matchAt_lazy (r := ([e.mask], t)) (dot_of n1) (fun k hk => ?_) ((matchAt_lit _ _ _).trans m2)]
  · rfl
  · refine matchAt_lit_none (pair_not_prefix ?_ hk)
    exact not_infix_append h2 (take_one_length _) (Or.inr (by simp))

theorem entryMark_eq : entryMark = c!"ngx_string(" ++ ['"'] := rfl

theorem entry_gap {w t : Str} (h : ¬ entryMark <:+: w) {k : Nat} (hk : k < w.length) : matchAt entryRe (w.drop k ++ (entryMark ++ t)) = none := by
  rw [entryMark_eq] at h ⊢
  exact matchAt_lit_none (mark_not_prefix (by decide) h hk)

theorem entry_tail {w : Str} (h : ¬ entryMark <:+: w) {k : Nat} : matchAt entryRe (w.drop k ++ []) = none := by
  refine matchAt_lit_none ?_
  rintro ⟨v, hv⟩
  rw [List.append_nil] at hv
  refine h ⟨w.take k, v, ?_⟩
  rw [List.append_assoc]
  show w.take k ++ (c!"ngx_string(\"" ++ v) = w
  rw [hv, List.take_append_drop]

theorem find_entries {es : List CEntry} {tail : Str} (h : ∀ e ∈ es, e.Ok) (ht : ¬ entryMark <:+: tail) (hn : '\n' ∉ es.flatMap CEntry.text) :
    findAll entryRe (es.flatMap CEntry.text ++ tail) = es.map fun e => [e.name, e.mask] := by
  induction es with
  | nil =>
    have := findAll_skip (re := entryRe) (w := tail) (t := []) (fun k _ => entry_tail ht)
    simpa [findAll_nil] using this
  | cons e es ih =>
    rw [List.flatMap_cons, List.mem_append, not_or] at hn
    rw [List.flatMap_cons, e.text_eq, List.append_assoc, List.append_assoc, findAll_skip,
      findAll_match entry_consumes (entry_match (h e (by simp)) hn.1 _), ih (fun x hx => h x (by simp [hx])) hn.2]
    · rfl
    · intro k hk
      have := entry_gap (h e (by simp)).1 (t := e.name ++ (c!"\")" ++ (e.junk ++ (c!"," ++ (e.mask ++ c!",")))) ++ (es.flatMap CEntry.text ++ tail)) hk
      rw [← List.append_assoc entryMark] at this
      exact this

/-! ## Tables -/

theorem space_of {s : Str} (h : CSpaces s) : ∀ c ∈ s, reSpace c = true := by
  intro c hc
  have := h c hc
  simp only [List.mem_cons, List.not_mem_nil, or_false] at this
  rcases this with rfl | rfl | rfl | rfl <;> rfl

theorem space_back {s : Str} (hn : '\n' ∉ s) (h : ∀ c ∈ s, reSpace c = true) : CSpaces s := by
  intro c hc
  have := h c hc
  simp only [reSpace, Bool.or_eq_true, beq_iff_eq] at this
  simp only [List.mem_cons, List.not_mem_nil, or_false]
  rcases this with (((rfl | rfl) | rfl) | rfl) | rfl
  · simp
  · exact absurd hc hn
  · simp
  · simp
  · simp

theorem word_iff (c : Char) : reWord c = true ↔ c.isAlphanum = true ∨ c = '_' := by
  simp only [reWord, Char.isAlphanum, Char.isAlpha, Char.isUpper, Char.isLower, Char.isDigit, Bool.or_eq_true, Bool.and_eq_true, decide_eq_true_eq, beq_iff_eq]
  constructor
  · rintro (((h | h) | h) | h)
    · exact Or.inl (Or.inr h)
    · exact Or.inl (Or.inl (Or.inl h))
    · exact Or.inr h
    · exact Or.inl (Or.inl (Or.inr h))
  · rintro ((( h | h) | h) | h)
    · exact Or.inl (Or.inl (Or.inr h))
    · exact Or.inr h
    · exact Or.inl (Or.inl (Or.inl h))
    · exact Or.inl (Or.inr h)

theorem word_not_space {c : Char} (h : reWord c = true) : reSpace c = false := by
  cases hs : reSpace c with
  | false => rfl
  | true =>
    simp only [reSpace, Bool.or_eq_true, beq_iff_eq] at hs
    rcases hs with (((rfl | rfl) | rfl) | rfl) | rfl <;> revert h <;> decide

/-- A table after its gap. -/
def Spec.CTable.core (t : CTable) : Str :=
  tableMark ++ (t.sp1 ++ (t.name ++ (c!"[]" ++ (t.sp2 ++ (c!"=" ++ (t.sp3 ++ (c!"{" ++ (t.body ++ (c!"}" ++ (t.sp4 ++ c!";"))))))))))

theorem Spec.CTable.text_eq (t : CTable) : t.text = t.gap ++ t.core := by simp [CTable.text, CTable.core]

theorem close_none {body sp t : Str} (h : ¬ HasClose body) (hn : '\n' ∉ body) (hs : CSpaces sp) {k : Nat} (hk : k < body.length) :
    matchAt [.lit c!"}", .rep reSpace 0 true false, .lit c!";"] (body.drop k ++ (c!"}" ++ (sp ++ (c!";" ++ t)))) = none := by
  cases hm : matchAt [.lit c!"}", .rep reSpace 0 true false, .lit c!";"] (body.drop k ++ (c!"}" ++ (sp ++ (c!";" ++ t)))) with
  | none => rfl
  | some r =>
    exfalso
    obtain ⟨s1, e1, m1⟩ := matchAt_lit_some hm
    obtain ⟨w, s2, r2, rfl, -, hw, m2, -⟩ := matchAt_rep_some m1
    obtain ⟨s3, rfl, -⟩ := matchAt_lit_some m2
    have hb : body = body.take k ++ body.drop k := (List.take_append_drop k body).symm
    have hne : body.drop k ≠ [] := by rw [ne_eq, List.drop_eq_nil_iff]; omega
    obtain ⟨x, u, hu⟩ := List.exists_cons_of_ne_nil hne
    rw [hu] at e1 hb
    simp only [List.cons_append, List.nil_append, List.cons.injEq] at e1
    obtain ⟨rfl, e1⟩ := e1
    -- `u ++ '}' ... = w ++ ';' ...`
    rcases List.append_eq_append_iff.mp e1 with ⟨z, h1, h2⟩ | ⟨z, h1, h2⟩
    · rcases z with _ | ⟨z0, z⟩
      · simp at h2
      · simp only [List.cons_append, List.cons.injEq] at h2
        have := hw z0 (by rw [h1]; simp)
        rw [← h2.1] at this
        exact absurd this (by decide)
    · rcases z with _ | ⟨z0, z⟩
      · simp at h2
      · simp only [List.cons_append, List.cons.injEq] at h2
        refine h ⟨body.take k, w, z, ?_, space_back ?_ hw⟩
        · conv => lhs; rw [hb, h1, ← h2.1]
          simp
        · intro hw'
          apply hn
          rw [hb, h1]
          simp [hw']

theorem head_space {s t : Str} (hs : CSpaces s) {p : Char → Bool} (hp : ∀ c, c ∈ [' ', '\t', '\r', '\x0c'] → p c = false) (ht : ∀ c, t.head? = some c → p c = false) :
    ∀ c, (s ++ t).head? = some c → p c = false := by
  intro c hc
  cases s with
  | nil => exact ht c hc
  | cons x s =>
    simp only [List.cons_append, List.head?_cons, Option.some.injEq] at hc
    subst hc
    exact hp _ (hs _ (by simp))

theorem table_match {t : CTable} (h : t.Ok) (hn : '\n' ∉ t.text) (rest : Str) : matchAt blockRe (t.core ++ rest) = some ([t.name, t.body], rest) := by
  obtain ⟨-, h1, h2, h3, h4, h5, h6, -, -, h9⟩ := h
  have hnb : '\n' ∉ t.body := by
    intro hb
    apply hn
    rw [CTable.text]
    simp [hb]
  unfold CTable.core blockRe
  simp only [List.append_assoc]
  rw [show tableMark = c!"ngx_command_t" from rfl, matchAt_lit]
  have e1 : matchAt [.lit c!"}", .rep reSpace 0 true false, .lit c!";"] (c!"}" ++ (t.sp4 ++ (c!";" ++ rest))) = some ([], rest) := by
    rw [matchAt_lit, matchAt_greedy (r := ([], rest)) (space_of h6) (by simp; decide) (by omega) (matchAt_lit _ _ _)]
    rfl
  have e2 := matchAt_lazy (cls := reDot) (c := true) (dot_of hnb) (fun k hk => close_none (t := rest) h9 hnb h6 hk) e1
  have e3 := (matchAt_lit c!"{" _ _).trans e2
  have e4 := matchAt_greedy (cls := reSpace) (min := 0) (c := false) (space_of h5) (by simp; decide) (Nat.zero_le _) e3
  have e5 := (matchAt_lit c!"=" _ _).trans e4
  have e6 := matchAt_greedy (cls := reSpace) (min := 0) (c := false) (space_of h4) (by simp; decide) (Nat.zero_le _) e5
  have e7 := (matchAt_lit c!"[]" _ _).trans e6
  have e8 := matchAt_greedy (cls := reWord) (min := 1) (c := true) (fun c hc => (word_iff c).mpr (h3.2 c hc)) (by simp; decide) (List.length_pos_iff.mpr h3.1) e7
  have e9 := matchAt_greedy (cls := reSpace) (min := 1) (c := false) (space_of h2) ?_ (List.length_pos_iff.mpr h1) e8
  · rw [e9]
    rfl
  · intro c hc
    obtain ⟨x, u, hu⟩ := List.exists_cons_of_ne_nil h3.1
    rw [hu] at hc
    simp only [List.cons_append, List.head?_cons, Option.some.injEq] at hc
    subst hc
    exact word_not_space ((word_iff _).mpr (h3.2 x (by rw [hu]; simp)))

/-- A match starts with the head of a table. -/
theorem block_head {s : Str} {r} (hn : '\n' ∉ s) (h : matchAt blockRe s = some r) :
    ∃ w n b, s = tableMark ++ (w ++ (n ++ (c!"[]" ++ b))) ∧ w ≠ [] ∧ CSpaces w ∧ CName n := by
  unfold blockRe at h
  obtain ⟨s1, rfl, m1⟩ := matchAt_lit_some h
  obtain ⟨w, s2, r2, rfl, l2, hw, m2, -⟩ := matchAt_rep_some m1
  obtain ⟨n, s3, r3, rfl, l3, hn', m3, -⟩ := matchAt_rep_some m2
  obtain ⟨b, rfl, -⟩ := matchAt_lit_some m3
  refine ⟨w, n, b, rfl, List.length_pos_iff.mp l2, space_back (fun h => hn ?_) hw, List.length_pos_iff.mp l3, fun c hc => (word_iff c).mp (hn' c hc)⟩
  simp [h]

theorem noSpace_name {n : Str} (h : CName n) (b : Str) : ∀ c ∈ n ++ c!"[]", c ∉ [' ', '\t', '\r', '\x0c'] := by
  intro c hc hs
  rw [List.mem_append] at hc
  rcases hc with hc | hc
  · have := word_not_space ((word_iff c).mpr (h.2 c hc))
    rw [space_of (s := [c]) (fun x hx => by rw [List.mem_singleton.mp hx]; exact hs) c (by simp)] at this
    cases this
  · simp only [List.mem_cons, List.not_mem_nil, or_false] at hc hs
    rcases hc with rfl | rfl <;> revert hs <;> decide

/-- A head does not start in a gap and end after it. -/
theorem gap_head {g t : Str} {c : Char} (hg : ¬ HasHead g) (hc : c ∈ [' ', '\t', '\r', '\x0c']) {k : Nat} (hk : k < g.length) {w n b : Str}
    (h : g.drop k ++ (tableMark ++ c :: t) = tableMark ++ (w ++ (n ++ (c!"[]" ++ b)))) (hw : w ≠ []) (hws : CSpaces w) (hn : CName n) : False := by
  have hg' : g = g.take k ++ g.drop k := (List.take_append_drop k g).symm
  have hpos : 0 < (g.drop k).length := by rw [List.length_drop]; omega
  have e : tableMark ++ (w ++ (n ++ (c!"[]" ++ b))) = (tableMark ++ (w ++ (n ++ c!"[]"))) ++ b := by simp
  rw [e] at h
  have e2 : tableMark ++ c :: t = (tableMark ++ [c]) ++ t := by simp
  rw [e2] at h
  rcases List.append_eq_append_iff.mp h with ⟨z, h1, h2⟩ | ⟨z, h1, h2⟩
  · -- the head ends after the gap
    rcases List.append_eq_append_iff.mp h2 with ⟨y, h3, h4⟩ | ⟨y, h3, h4⟩
    · -- mark and blank are in the head
      rw [h3] at h1
      have hi : (tableMark ++ (w ++ (n ++ c!"[]")))[(g.drop k).length + 13]? = some c := by
        rw [h1, List.getElem?_append_right (by omega)]
        simp [tableMark]
      have hi' : (tableMark ++ (w ++ (n ++ c!"[]")))[(g.drop k).length + 12]? = some 't' := by
        rw [h1, List.getElem?_append_right (by omega)]
        simp [tableMark]
      have hlt : (g.drop k).length < w.length := by
        rw [List.getElem?_append_right (by simp [tableMark])] at hi
        by_contra hge
        rw [List.getElem?_append_right (by simp [tableMark]; simp at hge; omega)] at hi
        exact noSpace_name hn b c (List.mem_of_getElem? hi) hc
      rw [List.getElem?_append_right (by simp [tableMark]; simp at hpos; omega), List.getElem?_append_left (by simp [tableMark]; simp at hlt hpos; omega)] at hi'
      have := hws 't' (List.mem_of_getElem? hi')
      revert this; decide
    · -- the head ends in mark and blank
      rcases List.eq_nil_or_concat z with rfl | ⟨z', x, rfl⟩
      · refine hg ⟨g.take k, w, n, [], ?_, hw, hws, hn⟩
        rw [List.append_nil] at h1
        conv => lhs; rw [hg', ← h1]
        simp
      · have hx : x = ']' := by
          have := congrArg List.getLast? h1
          simpa using this.symm
        subst hx
        have : ']' ∈ tableMark ++ [c] := by rw [h3]; simp
        simp only [tableMark, List.mem_append, List.mem_singleton] at this
        rcases this with h | h
        · revert h; decide
        · rw [← h] at hc; revert hc; decide
  · refine hg ⟨g.take k, w, n, z, ?_, hw, hws, hn⟩
    conv => lhs; rw [hg', h1]
    simp

theorem block_gap {t : CTable} (h : t.Ok) {k : Nat} (hk : k < t.gap.length) (rest : Str) (hn : '\n' ∉ t.text ++ rest) : matchAt blockRe (t.gap.drop k ++ (t.core ++ rest)) = none := by
  cases hm : matchAt blockRe (t.gap.drop k ++ (t.core ++ rest)) with
  | none => rfl
  | some r =>
    exfalso
    have hn' : '\n' ∉ t.gap.drop k ++ (t.core ++ rest) := by
      intro hx
      apply hn
      rw [t.text_eq]
      rw [List.mem_append] at hx
      rcases hx with hx | hx
      · simp [List.mem_of_mem_drop hx]
      · rw [List.append_assoc, List.mem_append]; exact Or.inr hx
    obtain ⟨w, n, b, e, hw, hws, hname⟩ := block_head hn' hm
    obtain ⟨hg, h1, h2, -⟩ := h
    obtain ⟨c, u, hu⟩ := List.exists_cons_of_ne_nil h1
    unfold CTable.core at e
    rw [hu, List.cons_append, List.append_assoc, List.cons_append] at e
    exact gap_head hg (h2 c (by rw [hu]; simp)) hk e hw hws hname

theorem block_last {s : Str} (h : ¬ HasHead s) (hn : '\n' ∉ s) {k : Nat} : matchAt blockRe (s.drop k ++ []) = none := by
  rw [List.append_nil]
  cases hm : matchAt blockRe (s.drop k) with
  | none => rfl
  | some r =>
    obtain ⟨w, n, b, e, hw, hws, hname⟩ := block_head (fun hx => hn (List.mem_of_mem_drop hx)) hm
    refine absurd ⟨s.take k, w, n, b, ?_, hw, hws, hname⟩ h
    conv => lhs; rw [← List.take_append_drop k s, e]
    simp

theorem find_tables {ts : List CTable} {last : Str} (h : SourceOk ts last) (hn : '\n' ∉ sourceText ts last) :
    findAll blockRe (sourceText ts last) = ts.map fun t => [t.name, t.body] := by
  induction ts with
  | nil =>
    have := findAll_skip (re := blockRe) (w := last) (t := []) (fun k _ => block_last h.2 (by simpa [sourceText] using hn))
    simpa [findAll_nil, sourceText] using this
  | cons t ts ih =>
    have e : sourceText (t :: ts) last = t.text ++ sourceText ts last := by simp [sourceText]
    rw [e] at hn ⊢
    have hn1 := hn
    rw [List.mem_append, not_or] at hn
    rw [t.text_eq, List.append_assoc, findAll_skip, findAll_match block_consumes (table_match (h.1 t (by simp)) hn.1 _),
      ih ⟨fun x hx => h.1 x (by simp [hx]), h.2⟩ hn.2]
    · rfl
    · exact fun k hk => block_gap (h.1 t (by simp)) hk _ hn1

/-- **C59**.  In a well-formed C file - code with comments, whose code without line ends is text with command tables - the generator finds exactly the
definitions of the tables, in order. -/
theorem C59_definitions {ps : List CPart} (h : PartsOk ps) {ls : List (Str × Bool)} {lastLine : Str} (hl : LinesOk ls lastLine)
    (hc : ps.flatMap CPart.codeOf = unlines ls lastLine) {ts : List CTable} {last : Str} (ht : joined ls lastLine = sourceText ts last)
    (hs : SourceOk ts last) : sourceDefs (ps.flatMap CPart.text) = definitions ts := by
  have hn : '\n' ∉ sourceText ts last := by
    rw [← ht, joined, List.mem_append, List.mem_flatMap]
    rintro (⟨l, hl1, hl2⟩ | hl2)
    · exact (hl.1 l hl1).1 hl2
    · exact hl.2 hl2
  unfold sourceDefs definitions
  rw [C59_clean h hl hc, ht, find_tables hs hn, List.flatMap_map]
  have : ∀ t ∈ ts, (findAll entryRe ([t.name, t.body].getD 1 [])).map (fun a => (a.getD 0 [], a.getD 1 [])) = t.entries.map fun e => (e.name, e.mask) := by
    intro t hm
    obtain ⟨-, -, -, -, -, -, -, h8, h9, -⟩ := hs.1 t hm
    show (findAll entryRe t.body).map _ = _
    rw [CTable.body, find_entries h8 h9, List.map_map]
    · rfl
    · intro hx
      apply hn
      rw [sourceText, List.mem_append, List.mem_flatMap]
      refine Or.inl ⟨t, hm, ?_⟩
      rw [CTable.text, CTable.body]
      simp only [List.mem_append]
      simp [hx]
  clear h hl hc ht hs hn
  induction ts with
  | nil => rfl
  | cons t ts ih =>
    rw [List.flatMap_cons, List.flatMap_cons, this t (by simp), ih fun x hx => this x (by simp [hx])]

/-- **C59**.  The masks generated from a well-formed C file are those of its definitions (see C55 for these). -/
theorem C59_masks {ps : List CPart} (h : PartsOk ps) {ls : List (Str × Bool)} {lastLine : Str} (hl : LinesOk ls lastLine)
    (hc : ps.flatMap CPart.codeOf = unlines ls lastLine) {ts : List CTable} {last : Str} (ht : joined ls lastLine = sourceText ts last)
    (hs : SourceOk ts last) : masksFromText (ps.flatMap CPart.text) = masksFromDefs (definitions ts) [] := by
  rw [masksFromText, C59_definitions h hl hc ht hs]

theorem not_head {s : Str} (h : ¬ tableMark <:+: s) : ¬ HasHead s := by
  rintro ⟨a, w, n, b, rfl, -⟩
  exact h ⟨a, w ++ n ++ c!"[]" ++ b, by simp⟩
theorem not_close {s : Str} (h : ';' ∉ s) : ¬ HasClose s := by
  rintro ⟨a, w, b, rfl, -⟩
  exact h (by simp)

/-! ### Example -/

def srcParts : List CPart := [.line c!" c", .code c!"\n", .block c!" x\n ", .code c!" static ngx_command_t  a_commands[] = {\r\n { ngx_string(\"foo\"),", .line c!" one",
  .code c!"\n  NGX_A|NGX_B,\n 0 },\n ngx_null_command };\nint x;"]
def srcTable : CTable := ⟨c!" static ", c!"  ", c!"a_commands", c!" ", c!" ", [⟨c!" { ", c!"foo", c!"", c!"  NGX_A|NGX_B"⟩], c!" 0 }, ngx_null_command ", c!""⟩
def srcLines : List (Str × Bool) := [(c!"", false), (c!" static ngx_command_t  a_commands[] = {", true), (c!" { ngx_string(\"foo\"),", false),
   (c!"  NGX_A|NGX_B,", false), (c!" 0 },", false), (c!" ngx_null_command };", false)]
example : sourceDefs (srcParts.flatMap CPart.text) = [(c!"foo", c!"  NGX_A|NGX_B")] := 
  C59_definitions (ts := [srcTable]) (last := c!"int x;") (ls := srcLines) (lastLine := c!"int x;") (ps := srcParts)
    ⟨by decide, Or.inr ⟨_, _, rfl⟩, by decide, by decide, by decide, by decide, by decide, Or.inr ⟨_, _, _, rfl, by decide⟩, by decide, by decide, by decide,
     by decide, Or.inr ⟨_, _, rfl⟩, by decide, by decide, by decide, trivial⟩
    ⟨by decide, by decide⟩ rfl rfl
    ⟨fun t ht => by
      rw [List.mem_singleton.mp ht]
      refine ⟨not_head (by decide), by decide, by unfold CSpaces; decide, ⟨by decide, by decide⟩, by unfold CSpaces; decide, by unfold CSpaces; decide, by unfold CSpaces; decide, ?_, by decide, not_close (by decide)⟩
      intro e he
      rw [List.mem_singleton.mp he]
      exact ⟨by decide, by decide, by decide, by decide⟩,
     not_head (by decide)⟩

/-! ### Where the conditions are needed -/

/-- The table of the following files. -/
def oneTable : CTable := ⟨c!" ", c!" ", c!"a", c!" ", c!" ", [⟨c!" ", c!"foo", [], c!" M"⟩], c!" 0 ", []⟩

/-- **C59** without the condition on block comments is false: a web address in a block comment hides the end of the comment, and the table up to the
end of the next comment is lost. -/
theorem C59_false_address : let ps : List CPart := [.block c!" see http://a.b ", .code oneTable.text, .block c!" end "]
    ps.flatMap CPart.codeOf = sourceText [oneTable] [] ∧ definitions [oneTable] = [(c!"foo", c!" M")] ∧ sourceDefs (ps.flatMap CPart.text) = [] := by
  decide

/-- Likewise for two block comments with nothing between them: the first is not closed, since `*//` loses its slash. -/
theorem C59_false_adjacent : let ps : List CPart := [.block c!" a ", .block c!" b ", .code oneTable.text, .block c!" end "]
    ps.flatMap CPart.codeOf = sourceText [oneTable] [] ∧ definitions [oneTable] = [(c!"foo", c!" M")] ∧ sourceDefs (ps.flatMap CPart.text) = [] := by
  decide

/-- And for a line end as the only blank between the type and the name of the table. -/
theorem C59_false_line : sourceDefs c!"ngx_command_t\na[] = { ngx_string(\"foo\"), M, 0 };" = [] ∧
    sourceDefs c!"ngx_command_t \na[] = { ngx_string(\"foo\"), M, 0 };" = [(c!"foo", c!" M")] := by decide

/-- A semicolon directly after a closing brace, here in a string, ends the table. -/
theorem C59_false_close : sourceDefs c!"ngx_command_t a[] = { ngx_string(\"f};\"), M, 0 };" = [] := by decide

end Verif
