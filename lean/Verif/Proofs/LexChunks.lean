import Verif.Proofs.LexExt
/-!
# The lexer with external lexers on chunks of text
-/
namespace Verif.ExtLex
open Verif Spec

variable {ext : ExtLexers}

/-- The flag of the lexer for directive position. -/
abbrev flag (st : LexSt) : Bool := st.nextTokenIsDirective

theorem prefix_of_eq {a b c : Str} (h : a ++ b = c) : a <+: c := ⟨b, h⟩

theorem contains_nl {a : Str} : a.contains '\n' = true ↔ '\n' ∈ a := by simp

theorem mem_text {u : U} (h : (u.char == '\n') = true) : '\n' ∈ u.text := by
  have : u.char = '\n' := by simpa using h
  cases u <;> simp_all [U.text, U.char]

/-- The rest of a word of value `v`. -/
theorem word_run {st p tok line start depth} (v : Str) (D : Bool) (hreg : D = true → ∀ n, n ≠ [] → n <+: v → n ≠ v → ext n = none) (us : List U)
    (h : InWord st p tok line start depth) (hu : ∀ u ∈ us, u.wf) {p' : WordPos} (hp : p.run us = some p') (hv : tok ++ textOf us = v)
    (hf : flag st = true → D = true) (hn : '\n' ∈ textOf us → D = true) (cs : List Char) :
    ∃ st', loopE ext st (textOf us ++ cs) = loopE ext st' cs ∧ InWord st' p' v (line + nls (textOf us)) start depth ∧ (flag st' = true → D = true) ∧
      ((∀ u ∈ us, u ≠ .plain '{') → flag st = true → flag st' = true) := by
  induction us generalizing st p tok line with
  | nil =>
    simp only [WordPos.run, Option.some.injEq] at hp
    subst hp
    refine ⟨st, by simp [textOf], ?_, hf, fun _ h => h⟩
    rw [← hv]
    simpa [textOf, nls_nil] using h
  | cons u us ih =>
    simp only [WordPos.run, Option.bind_eq_some_iff] at hp
    obtain ⟨p1, hp1, hp2⟩ := hp
    have ht : textOf (u :: us) = u.text ++ textOf us := by simp [textOf]
    have hD : (flag st || u.char == '\n') = true → D = true := by
      intro hh
      rcases Bool.or_eq_true_iff.mp hh with hh | hh
      · exact hf hh
      · exact hn (by rw [ht]; exact List.mem_append_left _ (mem_text hh))
    have hx : NoLook ext st u.char := by
      intro h1 h2
      rw [h.token] at h1 ⊢
      refine hreg (hD h2) tok h1 (prefix_of_eq hv) ?_
      intro e
      rw [← hv, ht] at e
      have := congrArg List.length e
      have h3 : u.text.length ≠ 0 := by simpa using text_ne_nil u
      simp only [List.length_append] at this
      omega
    obtain ⟨st1, e1, h1, f1, f2⟩ := word_step h (hu u (by simp)) hp1 hx (textOf us ++ cs)
    obtain ⟨st2, e2, h2, f3, f4⟩ := ih h1 (fun v hv => hu v (by simp [hv])) hp2 (by rw [← hv, ht]; simp) (fun hh => hD (f1 hh))
      (fun hh => hn (by rw [ht]; exact List.mem_append_right _ hh))
    refine ⟨st2, ?_, ?_, f3, ?_⟩
    · rw [ht, List.append_assoc, e1, e2]
    · rw [ht, nls_append, ← Int.add_assoc]; exact h2
    · intro hb hfl
      refine f4 (fun x hx => hb x (by simp [hx])) ?_
      rw [flag, f2 (hb u (by simp)), show st.nextTokenIsDirective = true from hfl]; rfl

/-- A whole word. -/
theorem word_all {st line start depth dup} (D : Bool) (h : Ready st line start depth dup) {us : List U} (hu : ∀ u ∈ us, u.wf)
    (hreg : D = true → ∀ n, n ≠ [] → n <+: textOf us → n ≠ textOf us → ext n = none)
    (hs : ∃ u us', us = u :: us' ∧ startsWord u) {p : WordPos} (hp : WordPos.run (.out false) us = some p)
    (hf : flag st = true → D = true) (hn : '\n' ∈ textOf us → D = true) (cs : List Char) :
    ∃ st', loopE ext st (textOf us ++ cs) = loopE ext st' cs ∧
      InWord st' p (textOf us) (line + nls (textOf us)) (wordLine line us) depth ∧ (flag st' = true → D = true) ∧
      ((∀ u ∈ us, u ≠ .plain '{') → flag st = true → flag st' = true) := by
  obtain ⟨u, us', rfl, hs⟩ := hs
  simp only [WordPos.run, Option.bind_eq_some_iff] at hp
  obtain ⟨p1, hp1, hp2⟩ := hp
  have ht : textOf (u :: us') = u.text ++ textOf us' := by simp [textOf]
  obtain ⟨st1, e1, h1, f1, f2⟩ := word_start (ext := ext) h (hu u (by simp)) hs hp1 (textOf us' ++ cs)
  obtain ⟨st2, e2, h2, f3, f4⟩ := word_run (textOf (u :: us')) D hreg us' h1 (fun v hv => hu v (by simp [hv])) hp2 ht.symm
    (by
      intro hh
      rcases Bool.or_eq_true_iff.mp (f1 hh) with hh | hh
      · exact hf hh
      · exact hn (by rw [ht]; exact List.mem_append_left _ (mem_text hh)))
    (fun hh => hn (by rw [ht]; exact List.mem_append_right _ hh)) cs
  refine ⟨st2, ?_, ?_, f3, ?_⟩
  · rw [ht, List.append_assoc, e1, e2]
  · rw [ht] at h2 ⊢
    rw [nls_append, wordLine_cons, ← Int.add_assoc]; exact h2
  · intro hb hfl
    refine f4 (fun x hx => hb x (by simp [hx])) ?_
    rw [flag, f2 (hb u (by simp)), show st.nextTokenIsDirective = true from hfl]; rfl

theorem quotedValue_cons (q : Char) (u : U) (us : List U) : quotedValue q (u :: us) = (if u = .esc q then [q] else u.text) ++ quotedValue q us := by
  simp [quotedValue]

/-- The rest of a quoted string of value `v`. -/
theorem quote_run {st q tok line start depth} (v : Str) (D : Bool) (hreg : D = true → ∀ n, n ≠ [] → n <+: v → ext n = none) (us : List U)
    (h : InQuote st q tok line start depth) (hu : ∀ u ∈ us, u.wf ∧ u ≠ .plain q) (hv : tok ++ quotedValue q us = v)
    (hf : flag st = true → D = true) (hn : '\n' ∈ textOf us → D = true) (cs : List Char) :
    ∃ st', loopE ext st (textOf us ++ cs) = loopE ext st' cs ∧
      InQuote st' q v (line + nls (textOf us)) start depth ∧ flag st' = (flag st || (textOf us).contains '\n') := by
  induction us generalizing st tok line with
  | nil =>
    refine ⟨st, by simp [textOf], ?_, by simp [textOf]⟩
    rw [← hv]
    simpa [textOf, nls_nil, quotedValue] using h
  | cons u us ih =>
    have ht : textOf (u :: us) = u.text ++ textOf us := by simp [textOf]
    have hD : (flag st || u.char == '\n') = true → D = true := by
      intro hh
      rcases Bool.or_eq_true_iff.mp hh with hh | hh
      · exact hf hh
      · exact hn (by rw [ht]; exact List.mem_append_left _ (mem_text hh))
    have hx : NoLook ext st u.char := by
      intro h1 h2
      rw [h.token] at h1 ⊢
      exact hreg (hD h2) tok h1 (prefix_of_eq hv)
    obtain ⟨st1, e1, h1, f1⟩ := quote_step h (hu u (by simp)).1 (hu u (by simp)).2 hx (textOf us ++ cs)
    obtain ⟨st2, e2, h2, f2⟩ := ih h1 (fun v hv => hu v (by simp [hv])) (by rw [← hv, quotedValue_cons]; simp) (fun hh => hD (by rw [flag, f1] at hh; exact hh))
      (fun hh => hn (by rw [ht]; exact List.mem_append_right _ hh))
    refine ⟨st2, ?_, ?_, ?_⟩
    · rw [ht, List.append_assoc, e1, e2]
    · rw [ht, nls_append, ← Int.add_assoc]; exact h2
    · rw [f2, ht, flag, f1, Bool.or_assoc]
      congr 1
      rw [Bool.eq_iff_iff]
      simp only [Bool.or_eq_true, List.contains_iff_mem, List.mem_append, beq_iff_eq]
      constructor
      · rintro (h | h)
        · exact Or.inl (mem_text (by simpa using h))
        · exact Or.inr h
      · rintro (h | h)
        · left
          cases u <;> simp [U.text, U.char] at h ⊢ <;> exact h.symm
        · exact Or.inr h

/-- The rest of a comment. -/
theorem comment_run {st tok line start depth dup} (us : List U) (h : InComment st tok line start depth dup)
    (hu : ∀ u ∈ us, u.wf ∧ u.char ≠ '\n') (hf : flag st = false) (cs : List Char) :
    ∃ st', loopE ext st (textOf us ++ cs) = loopE ext st' cs ∧
      InComment st' (tok ++ textOf us) line start depth dup ∧ flag st' = false := by
  induction us generalizing st tok with
  | nil => exact ⟨st, by simp [textOf], by simpa [textOf] using h, hf⟩
  | cons u us ih =>
    obtain ⟨st1, e1, h1, f1⟩ := comment_step (ext := ext) h (hu u (by simp)).1 (hu u (by simp)).2 hf (textOf us ++ cs)
    obtain ⟨st2, e2, h2, f2⟩ := ih h1 (fun v hv => hu v (by simp [hv])) f1
    have ht : textOf (u :: us) = u.text ++ textOf us := by simp [textOf]
    refine ⟨st2, ?_, ?_, f2⟩
    · rw [ht, List.append_assoc, e1, e2]
    · rw [ht]; simpa using h2

/-- What may follow items: the end of the text, or a word. -/
inductive Follow (ext : ExtLexers) (E : Bool) : List Item → Str → (Int → Int → Nat → Bool → List Tok) → Prop
  | eof (d : Str) : Dangling d → Follow ext E [] d specEOF
  | word (us : List U) (more : List Item) (txt : Str) (k : Int → Int → Nat → Bool → List Tok) :
      (∀ st line start depth dup, Ready st line start depth dup → flag st = E → loopE ext st txt = k line start depth dup) →
      Follow ext E (.word us :: more) txt k

theorem Follow.ready {E : Bool} {tail : List Item} {txt : Str} {k : Int → Int → Nat → Bool → List Tok} (hk : Follow ext E tail txt k)
    {st line start depth dup} (h : Ready st line start depth dup) (hf : flag st = E) : loopE ext st txt = k line start depth dup := by
  cases hk with
  | eof _ hd => rw [loopE_dangling st h.esc hd, finish_eq h.toCore, h.token]; simp [specEOF]
  | word us more _ _ hw => exact hw st line start depth dup h hf

/-- The lexer on items followed by something else, from a state between tokens. -/
theorem loop_items (n : Nat) : ∀ (items : List Item), items.length ≤ n → ∀ {st line start depth dup E tail txt k},
    Ready st line start depth dup → WF (items ++ tail) → Follow ext E tail txt k → dirAfter (flag st) items = E → Unregistered ext (dirNames (flag st) items) →
    loopE ext st (unlex items ++ txt) = specThen k line start depth dup false items := by
  induction n with
  | zero =>
    intro items hn st line start depth dup E tail txt k h hw hk hE hr
    have : items = [] := by cases items <;> simp_all
    subst this
    exact hk.ready h hE
  | succ n ih =>
    intro items hn st line start depth dup E tail txt k h hw hk hE hr
    have hu : ∀ (i : Item) (rest : List Item), unlex (i :: rest) ++ txt = i.text ++ (unlex rest ++ txt) := by
      intro i rest; simp [unlex]
    match items, hn, hw, hE, hr with
    | [], _, _, hE, hr => exact hk.ready h hE
    | .space c :: rest, hn, hw, hE, hr =>
      obtain ⟨w1, w2, w3⟩ := hw
      obtain ⟨st', e, h', f⟩ := ready_space (ext := ext) h w1 w2 (unlex rest ++ txt)
      rw [hu, Item.text, List.singleton_append, e, specThen]
      exact ih rest (by simpa using hn) h' w3 hk (by rw [flag, f]; exact hE) (by rw [flag, f]; exact hr)
    | .special c :: rest, hn, hw, hE, hr =>
      obtain ⟨w1, w2⟩ := hw
      obtain ⟨st', e, h'⟩ := ready_special (ext := ext) h w1 (unlex rest ++ txt)
      rw [hu, Item.text, List.singleton_append, e, specThen, specialOutE]
      simp only [Bool.false_eq_true, if_false]
      by_cases g1 : (dup = true ∧ c ≠ '}')
      · simp only [g1, and_self, if_true, ne_eq, not_false_eq_true]
      · rw [if_neg g1, if_neg g1]
        by_cases g2 : (c = '}' ∧ depth = 0)
        · simp only [g2, and_self, if_true]
        · obtain ⟨h1, f1⟩ := h' g2
          rw [if_neg g2, if_neg g2, ih rest (by simpa using hn) h1 w2 hk (by rw [flag, f1]; exact hE) (by rw [flag, f1]; exact hr)]
    | .quoted q us closed :: rest, hn, hw, hE, hr =>
      obtain ⟨w1, w2, w3, w4⟩ := hw
      rw [hu, Item.text, specThen]
      simp only [List.cons_append, List.append_assoc]
      obtain ⟨st1, e1, h1, f1⟩ := quote_start (ext := ext) h w1 (textOf us ++ ((if closed then [q] else []) ++ (unlex rest ++ txt)))
      have hreg : (flag st || (textOf us).contains '\n') = true → ∀ n, n ≠ [] → n <+: quotedValue q us → ext n = none := by
        intro hD
        refine hr _ ?_
        rw [dirNames, if_pos hD]
        simp
      obtain ⟨st2, e2, h2, f2⟩ := quote_run (quotedValue q us) (flag st || (textOf us).contains '\n') hreg us h1 w2 (by simp)
        (by intro hh; rw [flag, f1] at hh; simp [flag, hh]) (by intro hh; simp [hh]) ((if closed then [q] else []) ++ (unlex rest ++ txt))
      rw [e1, e2]
      rw [show flag st1 = flag st from f1] at f2
      cases closed with
      | true =>
        obtain ⟨st3, e3, h3, f3⟩ := quote_close h2 w1 (by
          intro g1 g2
          rw [h2.token] at g1 ⊢
          refine hreg ?_ _ g1 (List.prefix_refl _)
          have hqn : (q == '\n') = false := by rcases w1 with rfl | rfl <;> rfl
          rw [hqn, Bool.or_false] at g2
          exact f2 ▸ g2) (unlex rest ++ txt)
        simp only [if_true, List.singleton_append, true_or]
        have f4 : flag st3 = (flag st || (textOf us).contains '\n') := by rw [flag, f3]; exact f2
        rw [e3, ih rest (by simpa using hn) h3 w4 hk (by rw [f4]; exact hE) (by
          rw [f4]
          intro v hv
          refine hr v ?_
          rw [dirNames]
          exact List.mem_append_right _ hv)]
      | false =>
        have hr := w3 rfl
        have hrest : rest = [] := (List.append_eq_nil_iff.mp hr).1
        have htail : tail = [] := (List.append_eq_nil_iff.mp hr).2
        subst hrest htail
        cases hk with
        | eof _ hd =>
          simp only [Bool.false_eq_true, if_false, List.nil_append, false_or, unlex, List.flatMap_nil]
          rw [loopE_dangling st2 h2.esc hd, finish_eq h2.toCore, h2.token, h2.state]
          by_cases hv : quotedValue q us = [] <;> simp [hv, specThen, specEOF] <;> rfl
    | .comment us e :: rest, hn, hw, hE, hr =>
      obtain ⟨w1, w2, w3⟩ := hw
      rw [hu, Item.text, specThen]
      simp only [List.cons_append, List.append_assoc]
      obtain ⟨st1, e1, h1, f1⟩ := comment_start (ext := ext) h (textOf us ++ (e.text ++ (unlex rest ++ txt)))
      obtain ⟨st2, e2, h2, f2⟩ := comment_run (ext := ext) us h1 w1 f1 (e.text ++ (unlex rest ++ txt))
      rw [e1, e2]
      have hx : NoLook ext st2 '\n' := by
        intro g1 _
        rw [h2.token] at g1 ⊢
        exact hr _ (by rw [dirNames]; exact List.mem_cons_self) _ g1 (List.prefix_refl _)
      have hrest : Unregistered ext (dirNames true rest) := by
        intro v hv
        refine hr v ?_
        rw [dirNames]
        exact List.mem_cons_of_mem _ hv
      cases e with
      | nl =>
        obtain ⟨st3, e3, h3, f3⟩ := comment_close (u := .plain '\n') h2 (by simp [U.wf]) rfl hx (unlex rest ++ txt)
        rw [show CommentEnd.text .nl = U.text (.plain '\n') from rfl, e3, ih rest (by simpa using hn) h3 w3 hk (by rw [flag, f3]; exact hE) (by rw [flag, f3]; exact hrest)]
        rfl
      | escNl =>
        obtain ⟨st3, e3, h3, f3⟩ := comment_close (u := .esc '\n') h2 (by simp [U.wf]) rfl hx (unlex rest ++ txt)
        rw [show CommentEnd.text .escNl = U.text (.esc '\n') from rfl, e3, ih rest (by simpa using hn) h3 w3 hk (by rw [flag, f3]; exact hE) (by rw [flag, f3]; exact hrest)]
        rfl
      | eof =>
        have hr := w2 rfl
        have hrest : rest = [] := (List.append_eq_nil_iff.mp hr).1
        have htail : tail = [] := (List.append_eq_nil_iff.mp hr).2
        subst hrest htail
        cases hk with
        | eof _ hd =>
          simp only [CommentEnd.text, List.nil_append, unlex, List.flatMap_nil]
          rw [loopE_dangling st2 h2.esc hd, finish_eq h2.toCore, h2.token, h2.state]
          simp [specThen, specEOF, nls_nil]
    | .word us :: rest, hn, hw, hE, hr =>
      obtain ⟨w1, w2, ⟨p, w3, w4⟩, w5⟩ := hw
      rw [hu, Item.text, specThen]
      match rest, hn, w4, w5, hE, hr with
      | [], _, w4, _, _, hr =>
        have hreg : (flag st || (textOf us).contains '\n') = true → ∀ n, n ≠ [] → n <+: textOf us → n ≠ textOf us → ext n = none := by
          intro hD n h1 h2 _
          refine hr (textOf us) ?_ n h1 h2
          simp [dirNames]
          simpa using hD
        obtain ⟨st1, e1, h1, -⟩ := word_all (flag st || (textOf us).contains '\n') h w1 hreg w2 w3 (by intro hh; simp [hh]) (by intro hh; simp [hh]) (unlex [] ++ txt)
        rw [e1]
        have hst : (st1.lexState == .inQuote) = false := by
          rw [h1.state]; cases p <;> rfl
        cases hk with
        | eof _ hd =>
          simp only [unlex, List.flatMap_nil, List.nil_append]
          rw [loopE_dangling st1 h1.esc hd, finish_eq h1.toCore, hst, h1.token]
          simp [specThen, specEOF, h1.tokNe]
        | word us more _ _ _ => exact absurd w4 (by cases p <;> exact id)
      | .space c :: rest', hn, w4, w5, hE, hr =>
        cases p with
        | var => exact absurd w4 id
        | out dol =>
          have hreg : (flag st || (textOf us).contains '\n' || c == '\n') = true → ∀ n, n ≠ [] → n <+: textOf us → ext n = none := by
            intro hD
            refine hr (textOf us) ?_
            rw [dirNames, if_pos hD]
            simp
          obtain ⟨st1, e1, h1, f1, -⟩ := word_all (flag st || (textOf us).contains '\n' || c == '\n') h w1 (fun hD n a b _ => hreg hD n a b) w2 w3
            (by intro hh; simp [hh]) (by intro hh; simp [hh]) (unlex (.space c :: rest') ++ txt)
          rw [e1]
          obtain ⟨v1, v2, v3⟩ := w5
          obtain ⟨st2, e2, h2, f2⟩ := word_space h1 v1 v2 (by
            intro g1 g2
            rw [h1.token] at g1 ⊢
            refine hreg ?_ _ g1 (List.prefix_refl _)
            rcases Bool.or_eq_true_iff.mp g2 with g2 | g2
            · exact f1 g2
            · simp [g2]) (unlex rest' ++ txt)
          rw [hu, Item.text, List.singleton_append, e2, specThen]
          rw [ih rest' (by simp at hn; omega) h2 v3 hk (by rw [flag, f2]; exact hE) (by
            rw [flag, f2]
            intro v hv
            refine hr v ?_
            rw [dirNames]
            exact List.mem_append_right _ hv)]
      | .special c :: rest', hn, w4, w5, hE, hr =>
        cases p with
        | var => exact absurd w4 id
        | out dol =>
          have hreg : (flag st || (textOf us).contains '\n') = true → ∀ n, n ≠ [] → n <+: textOf us → ext n = none := by
            intro hD
            refine hr (textOf us) ?_
            rw [dirNames, if_pos hD]
            · simp
            · intro c rest'' e; cases e
          obtain ⟨st1, e1, h1, f1, -⟩ := word_all (flag st || (textOf us).contains '\n') h w1 (fun hD n a b _ => hreg hD n a b) w2 w3
            (by intro hh; simp [hh]) (by intro hh; simp [hh]) (unlex (.special c :: rest') ++ txt)
          rw [e1]
          obtain ⟨v1, v2⟩ := w5
          have hcn : (c == '\n') = false := by
            have hcs : c = '{' ∨ c = '}' ∨ c = ';' := by simpa [isSpecialChar, or_assoc] using v1
            rcases hcs with rfl | rfl | rfl <;> rfl
          obtain ⟨st2, e2, h2⟩ := word_special h1 v1 w4 (by
            intro g1 g2
            rw [h1.token] at g1 ⊢
            rw [hcn, Bool.or_false] at g2
            exact hreg (f1 g2) _ g1 (List.prefix_refl _)) (unlex rest' ++ txt)
          rw [hu, Item.text, List.singleton_append, e2, specThen, specialOutE]
          simp only [Bool.false_eq_true, false_and, if_false, if_true]
          congr 1
          by_cases g2 : (c = '}' ∧ depth = 0)
          · rw [if_pos g2, if_pos g2]
          · obtain ⟨h3, f3⟩ := h2 g2
            rw [if_neg g2, if_neg g2, ih rest' (by simp at hn; omega) h3 v2 hk (by rw [flag, f3]; exact hE) (by
              rw [flag, f3]
              intro v hv
              refine hr v ?_
              rw [dirNames]
              · exact List.mem_append_right _ hv
              · intro c rest'' e; cases e)]
      | .word _ :: _, _, w4, _, _, _ => exact absurd w4 (by cases p <;> exact id)
      | .quoted _ _ _ :: _, _, w4, _, _, _ => exact absurd w4 (by cases p <;> exact id)
      | .comment _ _ :: _, _, w4, _, _, _ => exact absurd w4 (by cases p <;> exact id)

end Verif.ExtLex
