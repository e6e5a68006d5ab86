import Verif.Props.Enquote
/-!
# C40: exactly which strings Enquote writes so that they are read back
-/
namespace Verif
open Spec

/-! ## Texts that are read as one token and a semicolon -/

theorem quotedValue_nil {q : Char} {us : List U} (h : quotedValue q us = []) : us = [] := by
  cases us with
  | nil => rfl
  | cons u us =>
    unfold quotedValue at h
    rw [List.flatMap_cons] at h
    cases u with
    | plain c => simp [U.text] at h
    | esc c => by_cases hc : c = q <;> simp [U.text, hc] at h

/-- Items without tokens have no semicolon. -/
theorem no_toks_no_semi : ∀ {items : List Item} {l st : Int} {dup g : Bool}, WF items → specToks l st 0 dup g items = [] → ';' ∉ unlex items
  | [], _, _, _, _, _, _ => by simp [unlex]
  | .space c :: rest, l, st, dup, g, hw, h => by
    have hc := hw.1
    have ih := no_toks_no_semi (items := rest) hw.2.2 h
    rw [unlex, List.flatMap_cons, List.mem_append, not_or]
    refine ⟨?_, ih⟩
    simp only [Item.text, List.mem_singleton]
    rintro rfl
    revert hc; decide
  | .special c :: rest, l, st, dup, g, hw, h => by
    simp only [specToks] at h
    split at h
    · cases h
    · split at h <;> cases h
  | .word us :: rest, l, st, dup, g, hw, h => by simp [specToks] at h
  | .comment us e :: rest, l, st, dup, g, hw, h => by simp [specToks] at h
  | .quoted q us closed :: rest, l, st, dup, g, hw, h => by
    simp only [specToks, List.append_eq_nil_iff] at h
    obtain ⟨h1, h2⟩ := h
    split at h1
    · cases h1
    · rename_i hc
      simp only [not_or, not_not, Bool.not_eq_true] at hc
      have hus := quotedValue_nil hc.2
      have hr := hw.2.2.1 hc.1
      subst hus hr
      have hq := hw.1
      rw [hc.1]
      rcases hq with rfl | rfl <;> decide

/-- What comes before a semicolon that is the only token: blanks. -/
theorem semi_items : ∀ {items : List Item} {l st l2 : Int} {g : Bool}, WF items → specToks l st 0 false g items = [⟨c!";", l2, false, none⟩] →
    ∃ (sp : Str) (rest : List Item), items = sp.map Item.space ++ .special ';' :: rest ∧ ';' ∉ unlex rest
  | [], _, _, _, _, _, h => by simp [specToks] at h
  | .space c :: rest, l, st, l2, g, hw, h => by
    obtain ⟨sp, r, e, hr⟩ := semi_items (items := rest) hw.2.2 h
    exact ⟨c :: sp, r, by rw [e]; rfl, hr⟩
  | .word us :: rest, l, st, l2, g, hw, h => by
    exfalso
    obtain ⟨u, us', e, hs⟩ := hw.2.1
    simp only [specToks, List.cons.injEq, Tok.mk.injEq] at h
    rw [e, textOf_cons] at h
    cases u with
    | plain c =>
      have h1 := h.1.1
      simp only [U.text, List.cons_append, List.cons.injEq] at h1
      obtain ⟨rfl, -⟩ := h1
      exact hs.2.1 rfl
    | esc c => simp [U.text] at h
  | .comment us e :: rest, l, st, l2, g, hw, h => by
    exfalso
    simp only [specToks, List.cons.injEq, Tok.mk.injEq] at h
    exact absurd h.1.1.1 (by decide)
  | .quoted q us closed :: rest, l, st, l2, g, hw, h => by
    exfalso
    simp only [specToks] at h
    split at h
    · simp at h
    · rename_i hc
      simp only [not_or, not_not, Bool.not_eq_true] at hc
      have hr := hw.2.2.1 hc.1
      subst hr
      simp [specToks] at h
  | .special c :: rest, l, st, l2, g, hw, h => by
    simp only [specToks] at h
    split at h
    · simp at h
    · split at h
      · simp at h
      · simp only [List.cons.injEq, Tok.mk.injEq] at h
        obtain ⟨⟨⟨rfl, -⟩, -⟩, h2⟩ := h
        refine ⟨[], rest, rfl, ?_⟩
        have : specToks l (if g = true then st else l) 0 true false rest = [] := by simpa using h2
        exact no_toks_no_semi hw.2 this

/-- A text that starts neither with a blank nor with a special character and is read, together with a semicolon, as one token and the semicolon: the token, perhaps with
blanks after it, or a comment. -/
theorem one_and_semi {t v : Str} {q : Bool} {l1 l2 : Int} (ht : ∃ c cs, t = c :: cs ∧ isSpaceRune c = false ∧ isSpecialChar c = false) (hr : '\r' ∉ t)
    (h : lex (t ++ c!";") = [⟨v, l1, q, none⟩, ⟨c!";", l2, false, none⟩]) :
    ∃ (i : Item) (sp : Str), t = i.text ++ sp ∧ (∀ c ∈ sp, isSpaceRune c = true) ∧ (OneTok i v ∨ ∃ us e, i = .comment us e ∧ v = '#' :: textOf us ∧ e ≠ .eof) := by
  obtain ⟨items, d, e, hw, hd, he⟩ := C03_every_text_is_items (t ++ c!";")
  have hf : (t ++ c!";").filter (· ≠ '\r') = t ++ c!";" := by
    rw [List.filter_eq_self]
    intro a ha
    rw [List.mem_append] at ha
    rcases ha with ha | ha
    · simpa using fun e : a = '\r' => hr (e ▸ ha)
    · rw [List.mem_singleton] at ha; subst ha; decide
  rw [hf] at e
  have hdn : d = [] := by
    rcases hd with rfl | rfl
    · rfl
    · have := congrArg List.getLast? e
      simp at this
  subst hdn
  rw [List.append_nil] at e
  rw [h] at he
  obtain ⟨c, cs, rfl, hc1, hc2⟩ := ht
  -- the rest after the first item
  have key : ∀ (i : Item) (rest : List Item) (l st : Int) (g : Bool), items = i :: rest → WF rest → specToks l st 0 false g rest = [⟨c!";", l2, false, none⟩] →
      ∃ (sp : Str) (rest2 : List Item), c :: cs = i.text ++ sp ∧ (∀ c ∈ sp, isSpaceRune c = true) ∧ rest = sp.map Item.space ++ .special ';' :: rest2 := by
    intro i rest l st g hi hwr hs
    obtain ⟨sp, rest2, e2, hn⟩ := semi_items hwr hs
    have hun : unlex (sp.map Item.space) = sp := by
      clear e2
      induction sp with
      | nil => rfl
      | cons x sp ih => rw [List.map_cons, unlex, List.flatMap_cons]; unfold unlex at ih; rw [ih]; rfl
    rw [hi, e2] at e
    have e3 : (c :: cs) ++ c!";" = i.text ++ (sp ++ (';' :: unlex rest2)) := by
      rw [e]
      unfold unlex at hun ⊢
      rw [List.flatMap_cons, List.flatMap_append, List.flatMap_cons, hun]
      rfl
    have e4 : unlex rest2 = [] := by
      rcases List.eq_nil_or_concat (unlex rest2) with h0 | ⟨L, x, h0⟩
      · exact h0
      · exfalso
        rw [h0, List.concat_eq_append] at e3 hn
        have e5 : (c :: cs) ++ c!";" = (i.text ++ (sp ++ ';' :: L)) ++ [x] := by rw [e3]; simp
        have := List.append_inj_right' e5 rfl
        rw [← this] at hn
        exact hn (by simp)
    refine ⟨sp, rest2, ?_, ?_, e2⟩
    · rw [e4, ← List.append_assoc] at e3
      exact List.append_cancel_right e3
    · have : ∀ (sp : Str) (r : List Item), WF (sp.map Item.space ++ r) → ∀ c ∈ sp, isSpaceRune c = true := by
        intro sp
        induction sp with
        | nil => simp
        | cons x sp ih =>
          intro r hw c hc
          rw [List.mem_cons] at hc
          rcases hc with rfl | hc
          · exact hw.1
          · exact ih r hw.2.2 c hc
      exact this sp _ (e2 ▸ hwr)
  cases items with
  | nil => simp [toksOf, specToks] at he
  | cons i rest =>
    unfold toksOf at he
    cases i with
    | space x =>
      exfalso
      rw [unlex, List.flatMap_cons] at e
      simp only [Item.text, List.cons_append, List.nil_append, List.cons.injEq] at e
      have := hw.1
      rw [← e.1, hc1] at this
      cases this
    | special x =>
      exfalso
      rw [unlex, List.flatMap_cons] at e
      simp only [Item.text, List.cons_append, List.nil_append, List.cons.injEq] at e
      have := hw.1
      rw [← e.1, hc2] at this
      cases this
    | word us =>
      simp only [specToks, List.cons.injEq, Tok.mk.injEq] at he
      obtain ⟨⟨h1, -⟩, h2⟩ := he
      obtain ⟨sp, rest2, k1, k2, k3⟩ := key _ _ _ _ _ rfl hw.2.2.2 h2.symm
      refine ⟨_, sp, k1, k2, .inl ?_⟩
      rw [h1]
      obtain ⟨p, hp1, hp2⟩ := hw.2.2.1
      cases p with
      | out d => exact .word hw.1 hw.2.1 hp1
      | var =>
        exfalso
        rw [k3] at hp2
        cases sp <;> exact hp2
    | quoted qq us closed =>
      simp only [specToks] at he
      split at he
      · rename_i hcl
        simp only [List.cons_append, List.nil_append, List.cons.injEq, Tok.mk.injEq] at he
        obtain ⟨⟨h1, -⟩, h2⟩ := he
        have hclosed : closed = true := by
          cases closed with
          | true => rfl
          | false =>
            have := hw.2.2.1 rfl
            subst this
            simp [specToks] at h2
        subst hclosed
        obtain ⟨sp, rest2, k1, k2, k3⟩ := key _ _ _ _ _ rfl hw.2.2.2 h2.symm
        refine ⟨_, sp, k1, k2, .inl ?_⟩
        rw [h1]
        exact .quoted hw.1 hw.2.1
      · rename_i hcl
        simp only [not_or, not_not, Bool.not_eq_true] at hcl
        have := hw.2.2.1 hcl.1
        subst this
        simp [specToks] at he
    | comment us ee =>
      simp only [specToks, List.cons.injEq, Tok.mk.injEq] at he
      obtain ⟨⟨h1, -⟩, h2⟩ := he
      obtain ⟨sp, rest2, k1, k2, k3⟩ := key _ _ _ _ _ rfl hw.2.2 h2.symm
      refine ⟨_, sp, k1, k2, .inr ⟨us, ee, rfl, h1, ?_⟩⟩
      rintro rfl
      have := hw.2.1 rfl
      subst this
      simp at k3

/-! ## No token has a carriage return -/

theorem textOf_noCR {us : List U} (h : ∀ u ∈ us, u.wf) : '\r' ∉ textOf us := by
  intro hm
  obtain ⟨u, hu, hc⟩ := List.mem_flatMap.1 hm
  have := h u hu
  cases u with
  | plain c =>
    simp only [U.text, List.mem_singleton] at hc
    exact this.2 hc.symm
  | esc c =>
    simp only [U.text, List.mem_cons, List.not_mem_nil, or_false] at hc
    rcases hc with hc | hc
    · cases hc
    · exact this hc.symm

theorem quotedValue_noCR {q : Char} {us : List U} (hq : q = '"' ∨ q = '\'') (h : ∀ u ∈ us, u.wf) : '\r' ∉ quotedValue q us := by
  intro hm
  obtain ⟨u, hu, hc⟩ := List.mem_flatMap.1 hm
  split at hc
  · rw [List.mem_singleton] at hc
    rcases hq with rfl | rfl <;> cases hc
  · exact textOf_noCR h (List.mem_flatMap.2 ⟨u, hu, hc⟩)

theorem specToks_noCR : ∀ {items : List Item} {l st : Int} {depth : Nat} {dup g : Bool}, WF items → ∀ t ∈ specToks l st depth dup g items, '\r' ∉ t.value
  | [], l, st, depth, dup, g, hw, t, ht => by
    simp only [specToks] at ht
    split at ht
    · rw [List.mem_singleton] at ht; subst ht; simp
    · cases ht
  | .space c :: rest, l, st, depth, dup, g, hw, t, ht => specToks_noCR (items := rest) hw.2.2 t ht
  | .special c :: rest, l, st, depth, dup, g, hw, t, ht => by
    simp only [specToks] at ht
    split at ht
    · rw [List.mem_singleton] at ht; subst ht; simp
    · split at ht
      · rw [List.mem_singleton] at ht; subst ht; simp
      · rw [List.mem_cons] at ht
        rcases ht with rfl | ht
        · have := hw.1
          simp only [List.mem_singleton]
          rintro rfl
          revert this; decide
        · exact specToks_noCR hw.2 t ht
  | .word us :: rest, l, st, depth, dup, g, hw, t, ht => by
    simp only [specToks, List.mem_cons] at ht
    rcases ht with rfl | ht
    · exact textOf_noCR hw.1
    · exact specToks_noCR hw.2.2.2 t ht
  | .quoted q us closed :: rest, l, st, depth, dup, g, hw, t, ht => by
    simp only [specToks, List.mem_append] at ht
    rcases ht with ht | ht
    · split at ht
      · rw [List.mem_singleton] at ht; subst ht
        exact quotedValue_noCR hw.1 (fun u hu => (hw.2.1 u hu).1)
      · cases ht
    · exact specToks_noCR hw.2.2.2 t ht
  | .comment us e :: rest, l, st, depth, dup, g, hw, t, ht => by
    simp only [specToks, List.mem_cons] at ht
    rcases ht with rfl | ht
    · simp only [List.mem_cons, not_or]
      exact ⟨by decide, textOf_noCR (fun u hu => (hw.1 u hu).1)⟩
    · exact specToks_noCR hw.2.2 t ht

/-- No token has a carriage return in its value. -/
theorem lex_noCR (s : Str) : ∀ t ∈ lex s, '\r' ∉ t.value := by
  obtain ⟨items, d, _, hw, _, he⟩ := C03_every_text_is_items s
  rw [he]
  exact specToks_noCR hw

theorem hexDigit_noCR (n : Nat) (h : n < 16) : hexDigit n ≠ '\r' := by
  revert n; decide

theorem hexDigits_noCR (k n : Nat) : '\r' ∉ hexDigits k n := by
  induction k generalizing n with
  | zero => simp [hexDigits]
  | succ k ih =>
    rw [hexDigits, List.mem_append, not_or]
    exact ⟨ih _, by simpa using (hexDigit_noCR _ (Nat.mod_lt _ (by decide))).symm⟩

theorem escapeRune_noCR (isPrint : Char → Bool) {c : Char} (h : c ≠ '\r') : '\r' ∉ escapeRune isPrint c := by
  unfold escapeRune
  have hh := h.symm
  repeat' split
  all_goals simp [hexDigits_noCR, hh]

/-! ## C40 -/

/-- C40, exact, for strings that are written without quotes: they are read back if and only if they are a word of the lexer. -/
theorem C40_unquoted_iff (isPrint : Char → Bool) (s : Str) (h : needsQuote s = false) :
    ReadAs (Enquote isPrint s) s ↔ ∃ us d, textOf us = s ∧ (∀ u ∈ us, u.wf) ∧ (∃ u us', us = u :: us' ∧ startsWord u) ∧ WordPos.run (.out false) us = some (.out d) := by
  have ht : Enquote isPrint s = s := by rw [C40_text, if_neg (by simp [h])]
  rw [ht]
  constructor
  · rintro ⟨⟨q, l1, l2, hl⟩, -⟩
    have hr : '\r' ∉ s := lex_noCR _ ⟨s, l1, q, none⟩ (by rw [hl]; simp)
    obtain ⟨c, cs, rfl, hc, -, -⟩ := needsQuote_false h
    obtain ⟨i, sp, e, hsp, hi⟩ := one_and_semi ⟨c, cs, rfl, hc.1, by simp [isSpecialChar, hc]⟩ hr hl
    rcases hi with hi | ⟨us, ee, rfl, hv, he⟩
    · generalize hv : c :: cs = v at hi
      cases hi with
      | @word us d h1 h2 h3 => exact ⟨us, d, rfl, h1, h2, h3⟩
      | quoted hq hu =>
        exfalso
        simp only [Item.text, List.cons_append, List.cons.injEq] at e
        rcases hq with rfl | rfl
        · exact hc.2.2.2.2.1 e.1
        · exact hc.2.2.2.2.2 e.1
    · exfalso
      have e2 := e
      rw [hv] at e2
      have := congrArg List.length e2
      cases ee with
      | eof => exact he rfl
      | nl => simp [Item.text, CommentEnd.text] at this
      | escNl => simp [Item.text, CommentEnd.text] at this
  · rintro ⟨us, d, rfl, h1, h2, h3⟩
    exact IsToken.readAs ⟨_, rfl, .word h1 h2 h3⟩

/-- The characters that Enquote writes as they are. -/
def Shown (isPrint : Char → Bool) (c : Char) : Prop := isPrint c = true ∨ c = '\\' ∨ c = '"'

theorem enc_count (isPrint : Char → Bool) (q c : Char) (hq : q = '"' ∧ c ≠ '"' ∨ q = '\'') :
    (enc isPrint q c).count q + 1 ≤ (enc isPrint q c).length ∧ ((enc isPrint q c).count q + 1 = (enc isPrint q c).length → Shown isPrint c) := by
  unfold enc
  by_cases h1 : c = '\\' ∨ c = '"'
  · rw [if_pos h1]
    have hcq : c ≠ q := by
      rcases hq with ⟨rfl, h⟩ | rfl
      · exact h
      · rcases h1 with rfl | rfl <;> decide
    refine ⟨?_, fun _ => .inr h1⟩
    rw [List.count_cons_of_ne hcq]; simp
  · rw [if_neg h1]
    by_cases hp : isPrint c = true
    · rw [if_pos hp]
      refine ⟨?_, fun _ => .inl hp⟩
      by_cases h2 : c = '\'' ∧ q = '\''
      · rw [if_pos h2]; obtain ⟨rfl, rfl⟩ := h2; decide
      · rw [if_neg h2]
        have hcq : c ≠ q := by
          rcases hq with ⟨rfl, h⟩ | rfl
          · exact h
          · rintro rfl; exact h2 ⟨rfl, rfl⟩
        rw [List.count_cons_of_ne hcq]; simp
    · rw [if_neg hp]
      rcases escapeRune_cases isPrint c (fun e => h1 (.inl e)) (fun e => h1 (.inr e)) with ⟨_, h⟩ | ⟨h, _⟩
      · exact absurd h hp
      · generalize escapeRune isPrint c = e at h
        obtain ⟨x, xs, g1, g2, g3, g4⟩ := h
        have hx : x ≠ q := by rcases hq with ⟨rfl, _⟩ | rfl <;> assumption
        have hb : ('\\' : Char) ≠ q := by rcases hq with ⟨rfl, _⟩ | rfl <;> decide
        have hxs : xs.count q = 0 := by
          rw [List.count_eq_zero]
          intro hm
          rcases hq with ⟨rfl, _⟩ | rfl
          · exact (g4 _ hm).2.1 rfl
          · exact (g4 _ hm).2.2 rfl
        have : ('\\' :: x :: xs).count q = 0 := by
          rw [List.count_cons_of_ne hb, List.count_cons_of_ne hx, hxs]
        rw [this]
        simp

theorem encs_count (isPrint : Char → Bool) (q : Char) : ∀ s : Str, (∀ c ∈ s, q = '"' ∧ c ≠ '"' ∨ q = '\'') →
    (s.flatMap (enc isPrint q)).count q + s.length ≤ (s.flatMap (enc isPrint q)).length ∧
    ((s.flatMap (enc isPrint q)).count q + s.length = (s.flatMap (enc isPrint q)).length → ∀ c ∈ s, Shown isPrint c)
  | [], _ => by simp
  | c :: s, h => by
    have h1 := enc_count isPrint q c (h c (by simp))
    have h2 := encs_count isPrint q s (fun x hx => h x (by simp [hx]))
    rw [List.flatMap_cons, List.count_append, List.length_append, List.length_cons]
    refine ⟨by omega, fun he x hx => ?_⟩
    rw [List.mem_cons] at hx
    rcases hx with rfl | hx
    · exact h1.2 (by omega)
    · exact h2.2 (by omega) x hx

/-- A quoted string loses one character for every quote within it. -/
theorem quotedValue_length {q : Char} (hq : q ≠ '\\') : ∀ us : List U, (∀ u ∈ us, u ≠ .plain q) →
    (quotedValue q us).length + (textOf us).count q = (textOf us).length
  | [], _ => rfl
  | u :: us, h => by
    have ih := quotedValue_length hq us (fun v hv => h v (by simp [hv]))
    have hu := h u (by simp)
    have hX : quotedValue q (u :: us) = (if u = .esc q then [q] else u.text) ++ quotedValue q us := rfl
    rw [textOf_cons, List.count_append, List.length_append, hX, List.length_append]
    clear hX
    cases u with
    | plain c =>
      have hc : c ≠ q := by rintro rfl; exact hu rfl
      rw [if_neg (by simp)]
      simp only [U.text]
      rw [List.count_cons_of_ne hc]
      simp only [List.count_nil, List.length_singleton]
      omega
    | esc c =>
      by_cases hc : c = q
      · subst hc
        rw [if_pos rfl]
        simp only [U.text]
        rw [List.count_cons_of_ne (Ne.symm hq), List.count_cons_self]
        simp only [List.count_nil, List.length_cons, List.length_nil]
        omega
      · rw [if_neg (by simpa using hc)]
        simp only [U.text]
        rw [List.count_cons_of_ne (Ne.symm hq), List.count_cons_of_ne hc]
        simp only [List.count_nil, List.length_cons, List.length_nil]
        omega

theorem enc_congr {p1 p2 : Char → Bool} (q c : Char) (h : p1 c = p2 c ∨ c = '\\' ∨ c = '"') : enc p1 q c = enc p2 q c := by
  unfold enc
  by_cases h1 : c = '\\' ∨ c = '"'
  · rw [if_pos h1, if_pos h1]
  · have h2 : p1 c = p2 c := by tauto
    rw [if_neg h1, if_neg h1, h2]
    unfold escapeRune
    rw [h2]

theorem Enquote_congr {p1 p2 : Char → Bool} (s : Str) (h : ∀ c, p1 c = p2 c ∨ c = '\\' ∨ c = '"') : Enquote p1 s = Enquote p2 s := by
  rw [C40_text, C40_text]
  have : enc p1 (quoteFor s) = enc p2 (quoteFor s) := funext fun c => enc_congr _ c (h c)
  rw [this]

theorem Enquote_shown (isPrint : Char → Bool) (s : Str) : Enquote isPrint s = Enquote (fun c => isPrint c || c == '\\' || c == '"') s := by
  refine Enquote_congr s fun c => ?_
  by_cases h1 : c = '\\'
  · exact .inr (.inl h1)
  · by_cases h2 : c = '"'
    · exact .inr (.inr h2)
    · left
      have e1 : (c == '\\') = false := by simpa using h1
      have e2 : (c == '"') = false := by simpa using h2
      show isPrint c = (isPrint c || c == '\\' || c == '"')
      rw [e1, e2, Bool.or_false, Bool.or_false]

/-- C40, exact, for strings that are written with quotes: they are read back if and only if they contain only characters that can be printed, no carriage return, every backslash has a
character after it, and, beside a double quote, there is no single quote after a backslash. -/
theorem C40_quoted_iff (isPrint : Char → Bool) (s : Str) (h : needsQuote s = true) :
    ReadAs (Enquote isPrint s) s ↔
      ∃ us, textOf us = s ∧ (∀ u ∈ us, u.wf) ∧ (∀ c ∈ s, Shown isPrint c) ∧ ('"' ∈ s → U.esc '\'' ∉ us) := by
  constructor
  · rintro ⟨⟨qd, l1, l2, hl⟩, -⟩
    have hr : '\r' ∉ s := lex_noCR _ ⟨s, l1, qd, none⟩ (by rw [hl]; simp)
    have hq : quoteFor s = '"' ∨ quoteFor s = '\'' := by unfold quoteFor; split <;> simp
    have hqs : ∀ c ∈ s, quoteFor s = '"' ∧ c ≠ '"' ∨ quoteFor s = '\'' := by
      intro c hc
      unfold quoteFor
      by_cases hm : '"' ∈ s
      · rw [if_pos hm]; exact .inr rfl
      · rw [if_neg hm]; exact .inl ⟨rfl, fun e => hm (e ▸ hc)⟩
    have hmem : '"' ∈ s → quoteFor s = '\'' := fun hm => by unfold quoteFor; rw [if_pos hm]
    rw [C40_text, if_pos h] at hl
    generalize quoteFor s = q at hl hq hqs hmem
    have hq1 : isSpaceRune q = false ∧ isSpecialChar q = false ∧ q ≠ '\\' ∧ q ≠ '\r' ∧ q ≠ '#' := by rcases hq with rfl | rfl <;> decide
    have hbr : '\r' ∉ s.flatMap (enc isPrint q) := by
      intro hm
      obtain ⟨c, hc, hm⟩ := List.mem_flatMap.1 hm
      have hcr : c ≠ '\r' := fun e => hr (e ▸ hc)
      unfold enc at hm
      split at hm
      · rw [List.mem_singleton] at hm; exact hcr hm.symm
      · rename_i hn
        split at hm
        · split at hm
          · revert hm; decide
          · rw [List.mem_singleton] at hm; exact hcr hm.symm
        · exact escapeRune_noCR isPrint hcr hm
    obtain ⟨i, sp, e, hsp, hi⟩ := one_and_semi (t := q :: s.flatMap (enc isPrint q) ++ [q]) ⟨q, _, rfl, hq1.1, hq1.2.1⟩
      (by simp only [List.cons_append, List.mem_cons, List.mem_append, List.not_mem_nil, or_false, not_or]; exact ⟨hq1.2.2.2.1.symm, hbr, hq1.2.2.2.1.symm⟩) hl
    have hsp0 : sp = [] := by
      rcases List.eq_nil_or_concat sp with h0 | ⟨L, x, h0⟩
      · exact h0
      · exfalso
        rw [h0, List.concat_eq_append] at e hsp
        rw [← List.append_assoc] at e
        have := List.append_inj_right' e rfl
        have h2 := hsp x (by simp)
        rw [← List.singleton_inj.1 this, hq1.1] at h2
        cases h2
    subst hsp0
    rw [List.append_nil] at e
    rcases hi with hi | ⟨us, ee, rfl, -, -⟩
    · generalize hv : s = v at hi
      cases hi with
      | @word us d h1 h2 h3 =>
        exfalso
        obtain ⟨u, us', rfl, hu⟩ := h2
        simp only [Item.text, textOf_cons, List.cons_append] at e
        cases u with
        | plain c =>
          simp only [U.text, List.cons_append, List.cons.injEq] at e
          rcases hq with hq | hq
          · exact hu.2.2.1 (e.1.symm.trans hq)
          · exact hu.2.2.2.1 (e.1.symm.trans hq)
        | esc c =>
          simp only [U.text, List.cons_append, List.cons.injEq] at e
          exact hq1.2.2.1 e.1
      | @quoted q2 us h1 h2 =>
        simp only [Item.text, if_true, List.cons_append, List.cons.injEq, List.append_cancel_right_eq] at e
        obtain ⟨rfl, e⟩ := e
        rw [List.append_cancel_right_eq] at e
        have hlen := quotedValue_length hq1.2.2.1 us (fun u hu => (h2 u hu).2)
        rw [← hv, ← e] at hlen
        have hall := (encs_count isPrint q s hqs).2 (by omega)
        refine ⟨us.map (fun u => if u = .esc q then .plain q else u), ?_, ?_, ?_, ?_⟩
        · clear hall hlen e hl hv h2
          unfold textOf quotedValue
          rw [List.flatMap_map]
          congr 1
          funext u
          by_cases hu : u = .esc q
          · rw [if_pos hu, if_pos hu]; rfl
          · rw [if_neg hu, if_neg hu]
        · intro u hu
          obtain ⟨v, hv, rfl⟩ := List.mem_map.1 hu
          by_cases hve : v = .esc q
          · rw [if_pos hve]; exact ⟨hq1.2.2.1, hq1.2.2.2.1⟩
          · rw [if_neg hve]; exact (h2 v hv).1
        · rw [← hv]; exact hall
        · intro hm hx
          rw [← hv] at hm
          have := hmem hm
          subst this
          obtain ⟨v, _, hv⟩ := List.mem_map.1 hx
          by_cases hve : v = .esc '\''
          · rw [if_pos hve] at hv; cases hv
          · rw [if_neg hve] at hv; exact hve hv
    · exfalso
      simp only [Item.text, List.cons_append, List.cons.injEq] at e
      exact hq1.2.2.2.2 e.1
  · rintro ⟨us, rfl, hw, hp, hq⟩
    rw [Enquote_shown]
    refine C40_quoted_partial _ us h hw ?_ hq
    intro c hc
    rcases hp c hc with h1 | h1 | h1 <;> simp [h1]

/-- C40, exact: a string is read back if and only if what Enquote writes is one item of the lexer with this value. -/
theorem C40_iff (isPrint : Char → Bool) (s : Str) : ReadAs (Enquote isPrint s) s ↔ IsToken (Enquote isPrint s) s := by
  constructor
  · intro h
    cases hn : needsQuote s with
    | false =>
      obtain ⟨us, d, rfl, h1, h2, h3⟩ := (C40_unquoted_iff isPrint s hn).1 h
      have ht : Enquote isPrint (textOf us) = textOf us := by rw [C40_text, if_neg (by simp [hn])]
      rw [ht]
      exact ⟨_, rfl, .word h1 h2 h3⟩
    | true =>
      obtain ⟨us, rfl, hw, hp, hq⟩ := (C40_quoted_iff isPrint s hn).1 h
      rw [Enquote_shown]
      refine quoted_token _ hn hw ?_ hq
      intro c hc
      rcases hp c hc with h1 | h1 | h1 <;> simp [h1]
  · exact IsToken.readAs

/-- What Enquote writes for two backslashes and a letter is read back, two backslashes and a semicolon are not. -/
example : ReadAs (Enquote (fun _ => true) c!"\\\\a") c!"\\\\a" ∧ ¬ ReadAs (Enquote (fun _ => true) c!"\\\\;") c!"\\\\;" := by
  constructor
  · exact (C40_unquoted_iff _ _ (by decide)).2 ⟨[.esc '\\', .plain 'a'], false, rfl, by simp [U.wf], ⟨_, _, rfl, trivial⟩, by decide⟩
  · rintro ⟨⟨q, l1, l2, h⟩, -⟩
    have h2 : ((lex (Enquote (fun _ => true) c!"\\\\;" ++ c!";")).map Tok.value) = c!"\\\\;" :: [c!";"] := by rw [h]; rfl
    revert h2
    decide +kernel

/-- A tab within quotes is not read back, whatever comes with it. -/
example (s : Str) (h : needsQuote s = true) (ht : '\t' ∈ s) : ¬ ReadAs (Enquote (fun c => decide (32 ≤ c.toNat)) s) s := by
  rw [C40_quoted_iff _ _ h]
  rintro ⟨us, -, -, hp, -⟩
  rcases hp _ ht with h1 | h1 | h1 <;> revert h1 <;> decide

/-- A string in quotes that is read back. -/
example : ReadAs (Enquote (fun _ => true) c!"it's \"a\\b\"") c!"it's \"a\\b\"" :=
  (C40_quoted_iff _ _ (by decide)).2 ⟨[.plain 'i', .plain 't', .plain '\'', .plain 's', .plain ' ', .plain '"', .plain 'a', .esc 'b', .plain '"'], rfl, by simp [U.wf],
    fun _ _ => .inl rfl, by decide⟩

end Verif
