import Verif.Props.External
import Verif.Proofs.Rebuild
/-!
# The tokens of built text with external builders
-/
namespace Verif
open Spec ExtLex

/-! ## Pieces of text -/

/-- What an external builder writes: the registered name, a blank, what the external lexer reads, and the tokens it gives. -/
structure XBlock where
  name : Str
  sep : Char
  body : Str
  out : Int → List Tok

/-- The text of a block. -/
def XBlock.text (b : XBlock) : Str := b.name ++ b.sep :: b.body

/-- The external lexer of the name reads the body, whatever follows. -/
structure XBlock.Ok (ext : ExtLexers) (b : XBlock) : Prop where
  plain : PlainName b.name
  free : ∀ n, n ≠ [] → n <+: b.name → n ≠ b.name → ext n = none
  blank : isSpaceRune b.sep = true
  noCr : b.sep ≠ '\r'
  reads : ∃ lx, ext b.name = some lx ∧ ∀ rest line, lx (b.body ++ rest) line = (b.out line, b.body.length)
  ends : b.body.getLast? ≠ none ∧ b.body.getLast? ≠ some '\n'

/-- The pieces of a text: code, the texts of comments, line feeds with the depth of the line after them, and what external builders write. -/
inductive XPiece where
  | code (is : List Item)
  | comment (c : Str)
  | nl (depth : Nat)
  | ext (b : XBlock)

/-- The text of pieces. -/
def xtext (mg : Nat → Str) : List XPiece → Str
  | [] => []
  | .code is :: ps => unlex is ++ xtext mg ps
  | .comment c :: ps => '#' :: c ++ xtext mg ps
  | .nl d :: ps => '\n' :: mg d ++ xtext mg ps
  | .ext b :: ps => b.text ++ xtext mg ps

theorem xtext_append (mg : Nat → Str) (a b : List XPiece) : xtext mg (a ++ b) = xtext mg a ++ xtext mg b := by
  induction a with
  | nil => rfl
  | cons p a ih => cases p <;> simp [xtext, ih]

/-- The tokens of pieces. -/
def xtoks : List XPiece → Int → Int → Nat → Bool → List Tok
  | [], line, start, depth, dup => specEOF line start depth dup
  | .code is :: ps, line, start, depth, dup => specThen (xtoks ps) line start depth dup false is
  | .comment c :: ps, line, _, depth, dup => ⟨'#' :: textOf (cunits c).1, line, false, none⟩ :: xtoks ps line line depth dup
  | .nl _ :: ps, line, start, depth, dup => xtoks ps (line + 1) start depth dup
  | .ext b :: ps, line, _, depth, _ =>
    ⟨b.name, line, false, none⟩ :: (b.out (line + nls [b.sep]) ++ xtoks ps (line + nls [b.sep] + nls b.body) line depth false)

/-- A line ends here. -/
def XFlush (ps : List XPiece) : Prop := ps = [] ∨ ∃ d r, ps = .nl d :: r

/-- The names among items, and what else counts as one, do not begin with a registered name. -/
def FreeItems (ext : ExtLexers) (is : List Item) : Prop := Unregistered ext (dirNames true is)

/-- Every comment ends with its line, what external builders write begins a line, and nothing else is registered. -/
def XOk (ext : ExtLexers) : Bool → List XPiece → Prop
  | _, [] => True
  | _, .code is :: ps => Closed is ∧ (∀ us e, .comment us e ∉ is) ∧ FreeItems ext is ∧ XOk ext false ps
  | _, .nl _ :: ps => XOk ext true ps
  | _, .comment c :: ps => CommentOk c ∧ XFlush ps ∧ XOk ext false ps
  | f, .ext b :: ps => f = true ∧ b.Ok ext ∧ XOk ext false ps

theorem XOk.weaken {ext : ExtLexers} {ps : List XPiece} {f : Bool} (h : XOk ext false ps) : XOk ext f ps := by
  cases ps with
  | nil => trivial
  | cons p ps =>
    cases p with
    | ext b => cases h.1
    | code is => exact h
    | comment c => exact h
    | nl d => exact h

/-! ## Lexing pieces -/

variable {ext : ExtLexers}

theorem dirNames_vals (n : Nat) : ∀ (is : List Item), is.length ≤ n → (∀ us e, .comment us e ∉ is) → ∀ f v, v ∈ dirNames f is → v ∈ (itemVals is).map Prod.fst := by
  induction n with
  | zero =>
    intro is hn _ f v hv
    obtain rfl : is = [] := List.length_eq_zero_iff.mp (Nat.le_zero.mp hn)
    simp [dirNames] at hv
  | succ n ih =>
    intro is hn hc f v hv
    match is, hn, hc, hv with
    | [], _, _, hv => simp [dirNames] at hv
    | .space c :: rest, hn, hc, hv => exact ih rest (by simpa using hn) (fun us e h => hc us e (by simp [h])) _ v hv
    | .special c :: rest, hn, hc, hv => exact ih rest (by simpa using hn) (fun us e h => hc us e (by simp [h])) _ v hv
    | .comment us e :: rest, _, hc, _ => exact absurd (List.mem_cons_self ..) (hc us e)
    | .quoted q us cl :: rest, hn, hc, hv =>
      rw [dirNames] at hv
      rw [itemVals, List.map_cons]
      rcases List.mem_append.mp hv with hv | hv
      · split at hv
        · simp only [List.mem_singleton] at hv; subst hv; simp
        · cases hv
      · exact List.mem_cons_of_mem _ (ih rest (by simpa using hn) (fun us e h => hc us e (by simp [h])) _ v hv)
    | .word us :: rest, hn, hc, hv =>
      rw [itemVals, List.map_cons]
      match rest, hn, hc, hv with
      | .space c :: rest', hn, hc, hv =>
        rw [dirNames] at hv
        rcases List.mem_append.mp hv with hv | hv
        · split at hv
          · simp only [List.mem_singleton] at hv; subst hv; simp
          · cases hv
        · refine List.mem_cons_of_mem _ ?_
          rw [itemVals]
          exact ih rest' (by simp at hn; omega) (fun us e h => hc us e (by simp [h])) _ v hv
          all_goals simp
      | [], hn, hc, hv =>
        simp only [dirNames, List.append_nil] at hv
        split at hv
        · simp only [List.mem_singleton] at hv; subst hv; simp
        · cases hv
      | .special c :: rest', hn, hc, hv =>
        rw [dirNames] at hv
        · rcases List.mem_append.mp hv with hv | hv
          · split at hv
            · simp only [List.mem_singleton] at hv; subst hv; simp
            · cases hv
          · exact List.mem_cons_of_mem _ (ih _ (by simpa using hn) (fun us e h => hc us e (by simp [h])) _ v hv)
        · intro c rest'' e; cases e
      | .word us' :: rest', hn, hc, hv =>
        rw [dirNames] at hv
        · rcases List.mem_append.mp hv with hv | hv
          · split at hv
            · simp only [List.mem_singleton] at hv; subst hv; simp
            · cases hv
          · exact List.mem_cons_of_mem _ (ih _ (by simpa using hn) (fun us e h => hc us e (by simp [h])) _ v hv)
        · intro c rest'' e; cases e
      | .quoted q us' cl :: rest', hn, hc, hv =>
        rw [dirNames] at hv
        · rcases List.mem_append.mp hv with hv | hv
          · split at hv
            · simp only [List.mem_singleton] at hv; subst hv; simp
            · cases hv
          · exact List.mem_cons_of_mem _ (ih _ (by simpa using hn) (fun us e h => hc us e (by simp [h])) _ v hv)
        · intro c rest'' e; cases e
      | .comment us' e :: rest', hn, hc, hv => exact absurd (by simp) (hc us' e)

/-- What is a name after a word is one at the start. -/
theorem dirNames_mono (n : Nat) : ∀ (is : List Item), is.length ≤ n → ∀ f v, v ∈ dirNames f is → v ∈ dirNames true is := by
  induction n with
  | zero =>
    intro is hn f v hv
    obtain rfl : is = [] := List.length_eq_zero_iff.mp (Nat.le_zero.mp hn)
    simp [dirNames] at hv
  | succ n ih =>
    intro is hn f v hv
    cases f with
    | true => exact hv
    | false =>
      have key : ∀ (b : Bool) (w : Str) (l l' : List Str), (v ∈ l → v ∈ l') → v ∈ (if b = true then [w] else []) ++ l → v ∈ [w] ++ l' := by
        intro b w l l' hl h
        rcases List.mem_append.mp h with h | h
        · split at h
          · exact List.mem_append_left _ h
          · cases h
        · exact List.mem_append_right _ (hl h)
      match is, hn, hv with
      | [], _, hv => exact hv
      | .space c :: rest, hn, hv =>
        rw [dirNames] at hv ⊢
        exact ih rest (by simpa using hn) _ v hv
      | .special c :: rest, hn, hv => exact hv
      | .comment us e :: rest, hn, hv => exact hv
      | .quoted q us cl :: rest, hn, hv =>
        rw [dirNames] at hv ⊢
        simp only [Bool.true_or, if_true]
        exact key _ _ _ _ (ih rest (by simpa using hn) _ v) hv
      | .word us :: rest, hn, hv =>
        match rest, hn, hv with
        | .space c :: rest', hn, hv =>
          rw [dirNames] at hv ⊢
          simp only [Bool.true_or, if_true]
          exact key _ _ _ _ id hv
        | [], hn, hv =>
          rw [dirNames] at hv ⊢
          · simp only [Bool.true_or, if_true]
            exact key _ _ _ _ id hv
          all_goals (intro c rest'' e; cases e)
        | .special c :: rest', hn, hv =>
          rw [dirNames] at hv ⊢
          · simp only [Bool.true_or, if_true]
            exact key _ _ _ _ (ih _ (by simpa using hn) _ v) hv
          all_goals (intro c rest'' e; cases e)
        | .word us' :: rest', hn, hv =>
          rw [dirNames] at hv ⊢
          · simp only [Bool.true_or, if_true]
            exact key _ _ _ _ (ih _ (by simpa using hn) _ v) hv
          all_goals (intro c rest'' e; cases e)
        | .quoted q us' cl :: rest', hn, hv =>
          rw [dirNames] at hv ⊢
          · simp only [Bool.true_or, if_true]
            exact key _ _ _ _ (ih _ (by simpa using hn) _ v) hv
          all_goals (intro c rest'' e; cases e)
        | .comment us' e :: rest', hn, hv =>
          rw [dirNames] at hv ⊢
          · simp only [Bool.true_or, if_true]
            exact key _ _ _ _ (ih _ (by simpa using hn) _ v) hv
          all_goals (intro c rest'' e; cases e)

/-- After a word there are no names as long as there are no line feeds. -/
theorem dirNames_quiet (n : Nat) : ∀ (is : List Item), is.length ≤ n → (∀ i ∈ is, Simple i) → (∀ c, .space c ∈ is → c ≠ '\n') → (∀ v ∈ itemVals is, '\n' ∉ v.1) →
    dirNames false is = [] := by
  induction n with
  | zero =>
    intro is hn _ _ _
    obtain rfl : is = [] := List.length_eq_zero_iff.mp (Nat.le_zero.mp hn)
    rfl
  | succ n ih =>
    intro is hn hs hc hv
    have hq : ∀ (q : Char) (us : List U), '\n' ∉ quotedValue q us → (textOf us).contains '\n' = false := by
      intro q us h
      rw [List.contains_eq_mem, decide_eq_false_iff_not]
      intro hm
      apply h
      unfold textOf at hm
      unfold quotedValue
      obtain ⟨u, hu, hm⟩ := List.mem_flatMap.mp hm
      refine List.mem_flatMap.mpr ⟨u, hu, ?_⟩
      split
      · rename_i e
        subst e
        simp [U.text] at hm
        exact List.mem_singleton.mpr hm
      · exact hm
    have hw : ∀ us : List U, '\n' ∉ textOf us → (textOf us).contains '\n' = false := by
      intro us h
      rw [List.contains_eq_mem, decide_eq_false_iff_not]
      exact h
    match is, hn, hs, hc, hv with
    | [], _, _, _, _ => rfl
    | .space c :: rest, hn, hs, hc, hv =>
      have : (c == '\n') = false := by simpa using hc c (by simp)
      rw [dirNames, this]
      exact ih rest (by simpa using hn) (fun i hi => hs i (by simp [hi])) (fun c h => hc c (by simp [h])) hv
    | .special c :: rest, hn, hs, hc, hv => exact (hs _ (List.mem_cons_self ..)).elim
    | .comment us e :: rest, hn, hs, hc, hv => exact (hs _ (List.mem_cons_self ..)).elim
    | .quoted q us cl :: rest, hn, hs, hc, hv =>
      have h1 := hq q us (hv _ (by rw [itemVals]; exact List.mem_cons_self ..))
      rw [dirNames, h1]
      simp only [Bool.or_self, Bool.false_eq_true, if_false, List.nil_append]
      exact ih rest (by simpa using hn) (fun i hi => hs i (by simp [hi])) (fun c h => hc c (by simp [h])) (fun v h => hv v (by rw [itemVals]; exact List.mem_cons_of_mem _ h))
    | .word us :: rest, hn, hs, hc, hv =>
      have h1 := hw us (hv (textOf us, false) (by rw [itemVals]; exact List.mem_cons_self ..))
      have hv' : ∀ v ∈ itemVals rest, '\n' ∉ v.1 := fun v h => hv v (by rw [itemVals]; exact List.mem_cons_of_mem _ h)
      have i1 := ih rest (by simpa using hn) (fun i hi => hs i (by simp [hi])) (fun c h => hc c (by simp [h])) hv'
      match rest, hn, hs, hc, i1 with
      | .space c :: rest', hn, hs, hc, i1 =>
        have : (c == '\n') = false := by simpa using hc c (by simp)
        rw [dirNames, this] at i1
        rw [dirNames, this, h1]
        simpa using i1
      | [], hn, hs, hc, i1 =>
        rw [dirNames, h1]
        · rfl
        · intro c rest'' e; cases e
      | .special c :: rest', hn, hs, hc, i1 => exact (hs (.special c) (by simp)).elim
      | .comment us' e :: rest', hn, hs, hc, i1 => exact (hs (.comment us' e) (by simp)).elim
      | .word us' :: rest', hn, hs, hc, i1 =>
        rw [dirNames]
        · rw [i1, h1]; rfl
        · intro c rest'' e; cases e
      | .quoted q us' cl :: rest', hn, hs, hc, i1 =>
        rw [dirNames]
        · rw [i1, h1]; rfl
        · intro c rest'' e; cases e

/-- The end of a directive adds no name. -/
theorem dirNames_append {tail : List Item} (ht : ∃ c, tail = [.special c] ∨ tail = [.space ' ', .special c]) (n : Nat) : ∀ (is : List Item), is.length ≤ n →
    ∀ f v, v ∈ dirNames f (is ++ tail) → v ∈ dirNames f is := by
  have h0 : ∀ f, dirNames f tail = [] := by
    intro f
    obtain ⟨c, rfl | rfl⟩ := ht <;> simp [dirNames]
  induction n with
  | zero =>
    intro is hn f v hv
    obtain rfl : is = [] := List.length_eq_zero_iff.mp (Nat.le_zero.mp hn)
    rw [List.nil_append, h0] at hv
    cases hv
  | succ n ih =>
    intro is hn f v hv
    have key : ∀ (a l l' : List Str), (v ∈ l → v ∈ l') → v ∈ a ++ l → v ∈ a ++ l' := by
      intro a l l' hl h
      rcases List.mem_append.mp h with h | h
      · exact List.mem_append_left _ h
      · exact List.mem_append_right _ (hl h)
    match is, hn, hv with
    | [], _, hv => rw [List.nil_append, h0] at hv; cases hv
    | .space c :: rest, hn, hv =>
      rw [List.cons_append, dirNames] at hv
      rw [dirNames]
      exact ih rest (by simpa using hn) _ v hv
    | .special c :: rest, hn, hv =>
      rw [List.cons_append, dirNames] at hv
      rw [dirNames]
      exact ih rest (by simpa using hn) _ v hv
    | .comment us e :: rest, hn, hv =>
      rw [List.cons_append, dirNames] at hv
      rw [dirNames]
      exact key [_] _ _ (ih rest (by simpa using hn) _ v) hv
    | .quoted q us cl :: rest, hn, hv =>
      rw [List.cons_append, dirNames] at hv
      rw [dirNames]
      exact key _ _ _ (ih rest (by simpa using hn) _ v) hv
    | .word us :: rest, hn, hv =>
      match rest, hn, hv with
      | .space c :: rest', hn, hv =>
        rw [List.cons_append, List.cons_append, dirNames] at hv
        rw [dirNames]
        exact key _ _ _ (ih rest' (by simp at hn; omega) _ v) hv
      | [], hn, hv =>
        obtain ⟨c, rfl | rfl⟩ := ht
        · simpa [dirNames] using hv
        · simpa [dirNames] using hv
      | .special c :: rest', hn, hv =>
        rw [List.cons_append, List.cons_append, dirNames] at hv
        · rw [dirNames]
          · exact key _ _ _ (ih (.special c :: rest') (by simpa using hn) _ v) hv
          · intro c rest'' e; cases e
        · intro c rest'' e; cases e
      | .word us' :: rest', hn, hv =>
        rw [List.cons_append, List.cons_append, dirNames] at hv
        · rw [dirNames]
          · exact key _ _ _ (ih (.word us' :: rest') (by simpa using hn) _ v) hv
          · intro c rest'' e; cases e
        · intro c rest'' e; cases e
      | .quoted q us' cl :: rest', hn, hv =>
        rw [List.cons_append, List.cons_append, dirNames] at hv
        · rw [dirNames]
          · exact key _ _ _ (ih (.quoted q us' cl :: rest') (by simpa using hn) _ v) hv
          · intro c rest'' e; cases e
        · intro c rest'' e; cases e
      | .comment us' e :: rest', hn, hv =>
        rw [List.cons_append, List.cons_append, dirNames] at hv
        · rw [dirNames]
          · exact key _ _ _ (ih (.comment us' e :: rest') (by simpa using hn) _ v) hv
          · intro c rest'' e; cases e
        · intro c rest'' e; cases e

theorem loop_code {is : List Item} (hc : Closed is) (hr : FreeItems ext is) {txt : Str} {k : Int → Int → Nat → Bool → List Tok}
    (hk : ∀ st line start depth dup, Ready st line start depth dup → loopE ext st txt = k line start depth dup)
    {st line start depth dup} (h : Ready st line start depth dup) : loopE ext st (unlex is ++ txt) = specThen k line start depth dup false is := by
  refine ExtLex.loop_items (E := dirAfter (flag st) is) (tail := [.word [.plain 'a']]) is.length is (Nat.le_refl _) h (hc _ (by decide +kernel))
    (.word _ _ _ _ (fun st line start depth dup h _ => hk st line start depth dup h)) rfl ?_
  intro v hv
  exact hr v (dirNames_mono is.length is (Nat.le_refl _) _ v hv)

theorem loop_margin {s : Str} (hs : ∀ c ∈ s, c = ' ' ∨ c = '\t') (txt : Str) : ∀ {st line start depth dup}, Ready st line start depth dup → flag st = true →
    ∃ st', loopE ext st (s ++ txt) = loopE ext st' txt ∧ Ready st' line start depth dup ∧ flag st' = true := by
  induction s with
  | nil => intro st line start depth dup h hf; exact ⟨st, rfl, h, hf⟩
  | cons c s ih =>
    intro st line start depth dup h hf
    obtain ⟨st1, e1, h1, f1⟩ := ExtLex.ready_space (ext := ext) h (c := c) (by rcases hs c (by simp) with rfl | rfl <;> decide)
      (by rcases hs c (by simp) with rfl | rfl <;> decide) (s ++ txt)
    have hz : nls [c] = 0 := by rcases hs c (by simp) with rfl | rfl <;> rfl
    rw [hz, Int.add_zero] at h1
    obtain ⟨st2, e2, h2, f2⟩ := ih (fun x hx => hs x (by simp [hx])) h1 (by rw [flag, f1, show st.nextTokenIsDirective = true from hf]; rfl)
    exact ⟨st2, by rw [List.cons_append, e1, e2], h2, f2⟩

theorem loop_ext {b : XBlock} (hb : b.Ok ext) {st line start depth dup} (h : Ready st line start depth dup) (hf : flag st = true) (txt : Str) :
    ∃ st', loopE ext st (b.text ++ txt) = ⟨b.name, line, false, none⟩ :: (b.out (line + nls [b.sep]) ++ loopE ext st' txt) ∧
      Ready st' (line + nls [b.sep] + nls b.body) line depth false := by
  obtain ⟨lx, hl, hread⟩ := hb.reads
  obtain ⟨w1, w2, w3, w4, w5⟩ := plainName_wf hb.plain
  have hrun : ∃ p, WordPos.run (.out false) (b.name.map .plain) = some p := by
    obtain ⟨hh, -⟩ := hb.plain
    clear w1 w2 w3 w4 w5 hl hread hb
    generalize false = b0
    generalize b.name = n at hh
    induction n generalizing b0 with
    | nil => exact ⟨_, rfl⟩
    | cons x xs ihx =>
      obtain ⟨g1, g2, -⟩ := hh x (by simp)
      have : x ≠ '{' := by rintro rfl; exact g2 (by decide)
      rw [List.map_cons, WordPos.run, WordPos.next]
      simp only [g1, g2, this, false_and, if_false]
      exact ihx _ (fun y hy => hh y (by simp [hy]))
  obtain ⟨p, hp⟩ := hrun
  obtain ⟨st2, e2, r2, -, f2⟩ := ExtLex.word_all (ext := ext) true h w1 (by
    intro _ n g1 g2 g3
    rw [textOf_plain] at g2 g3
    exact hb.free n g1 g2 g3) w2 hp (fun _ => rfl) (fun _ => rfl) (b.sep :: (b.body ++ txt))
  rw [textOf_plain] at e2 r2
  have hnl : nls b.name = 0 := by
    unfold nls
    exact_mod_cast List.count_eq_zero.mpr w3
  rw [hnl, Int.add_zero, w5] at r2
  obtain ⟨st3, e3, r3, f3⟩ := look_some r2 (f2 w4 hf) hl hb.blank hb.noCr (b.body ++ txt)
  rw [hread, List.take_left] at r3
  rw [hread, List.drop_left] at e3
  refine ⟨st3, ?_, r3⟩
  rw [XBlock.text, List.append_assoc, List.cons_append, e2, e3]

/-- The lexer on pieces, from a state between tokens. -/
theorem loop_pieces {mg : Nat → Str} (hm : MarginOk mg) (hh : ∀ r, ext ('#' :: r) = none) (n : Nat) : ∀ ps : List XPiece, ps.length ≤ n →
    ∀ {f st line start depth dup}, Ready st line start depth dup → (f = true → flag st = true) → XOk ext f ps →
    loopE ext st (xtext mg ps) = xtoks ps line start depth dup := by
  induction n with
  | zero =>
    intro ps hn f st line start depth dup h _ _
    obtain rfl : ps = [] := List.length_eq_zero_iff.mp (Nat.le_zero.mp hn)
    exact (Follow.eof (ext := ext) (E := flag st) [] (Or.inl rfl)).ready h rfl
  | succ n ih =>
    intro ps hn f st line start depth dup h hf hok
    cases ps with
    | nil => exact (Follow.eof (ext := ext) (E := flag st) [] (Or.inl rfl)).ready h rfl
    | cons p ps =>
      have hlen : ps.length ≤ n := by simpa using hn
      cases p with
      | code is =>
        obtain ⟨h1, h2, h3, h4⟩ := hok
        rw [xtext, xtoks]
        exact loop_code h1 h3 (fun st line start depth dup h => ih ps hlen h (f := false) (by simp) h4) h
      | nl d =>
        rw [xtext, xtoks]
        obtain ⟨st1, e1, h1, f1⟩ := ExtLex.ready_space (ext := ext) h (c := '\n') (by decide) (by decide) (mg d ++ xtext mg ps)
        rw [show nls ['\n'] = 1 from rfl] at h1
        obtain ⟨st2, e2, h2, f2⟩ := loop_margin (ext := ext) (hm d) (xtext mg ps) h1 (by rw [flag, f1]; simp)
        rw [List.cons_append, e1, e2]
        exact ih ps hlen h2 (fun _ => f2) hok
      | ext b =>
        obtain ⟨h1, h2, h3⟩ := hok
        obtain ⟨st1, e1, r1⟩ := loop_ext h2 h (hf h1) (xtext mg ps)
        rw [xtext, xtoks, e1, ih ps hlen r1 (f := false) (by simp) h3]
      | comment c =>
        obtain ⟨h1, h2, h3⟩ := hok
        obtain ⟨c1, c2, -⟩ := cunits_spec c.length c (Nat.le_refl _)
        obtain ⟨st1, e1, r1, f1⟩ := ExtLex.comment_start (ext := ext) h (c ++ xtext mg ps)
        obtain ⟨st2, e2, r2, f2⟩ := ExtLex.comment_run (ext := ext) (cunits c).1 r1 (cunits_wf h1) f1 ((cunits c).2 ++ xtext mg ps)
        rw [← List.append_assoc, c1] at e2
        rw [xtext, xtoks, List.cons_append, e1, e2]
        have hx : NoLook ext st2 '\n' := by
          intro g1 _
          rw [r2.token]; exact hh _
        rcases h2 with rfl | ⟨d, r, rfl⟩
        · rw [xtext, List.append_nil, loopE_dangling st2 r2.esc c2, finish_eq r2.toCore, r2.token, r2.state]
          simp [xtoks, specEOF]
        · have hclose : ∃ st3, loopE ext st2 ((cunits c).2 ++ ('\n' :: mg d ++ xtext mg r)) =
              ⟨'#' :: textOf (cunits c).1, line, false, none⟩ :: loopE ext st3 (mg d ++ xtext mg r) ∧ Ready st3 (line + 1) line depth dup ∧ flag st3 = true := by
            rcases c2 with c2 | c2
            · obtain ⟨st3, e3, h3, f3⟩ := ExtLex.comment_close (ext := ext) (u := .plain '\n') r2 (by simp [U.wf]) rfl hx (mg d ++ xtext mg r)
              refine ⟨st3, ?_, h3, f3⟩
              rw [c2]
              exact e3
            · obtain ⟨st3, e3, h3, f3⟩ := ExtLex.comment_close (ext := ext) (u := .esc '\n') r2 (by simp [U.wf]) rfl hx (mg d ++ xtext mg r)
              refine ⟨st3, ?_, h3, f3⟩
              rw [c2]
              exact e3
          obtain ⟨st3, e3, r3, f3⟩ := hclose
          obtain ⟨st4, e4, r4, f4⟩ := loop_margin (ext := ext) (hm d) (xtext mg r) r3 f3
          rw [xtext, e3, e4, xtoks]
          rw [ih r (by simp at hlen; omega) r4 (f := true) (fun _ => f4) h3]

/-! ## The pieces of a tree -/

mutual
/-- The pieces of directives; `hd` are the items of the names and arguments, `xb` the blocks that external builders write. -/
def xpieces (hd : Str → List Str → List Item) (xb : Directive → Option XBlock) (depth : Nat) (last : Int) : List Directive → List XPiece
  | [] => []
  | d :: ds =>
    if CommentOn d last then .code [.space ' '] :: .comment (d.comment.getD []) :: xpieces hd xb depth last ds
    else .nl depth :: (xpiecesDir hd xb depth d ++ xpieces hd xb depth (if (xb d).isSome then last else d.line) ds)
def xpiecesDir (hd : Str → List Str → List Item) (xb : Directive → Option XBlock) (depth : Nat) : Directive → List XPiece
  | ⟨dd, dl, dargs, df, dincl, dblock, dcomm, dmap⟩ =>
    match xb ⟨dd, dl, dargs, df, dincl, dblock, dcomm, dmap⟩ with
    | some b => [.ext b]
    | none =>
      match (if dd = c!"#" then dcomm else none) with
      | some text => [.comment text]
      | none => xpiecesBlock hd xb depth (hd dd dargs) dl dblock
def xpiecesBlock (hd : Str → List Str → List Item) (xb : Directive → Option XBlock) (depth : Nat) (head : List Item) (line : Int) :
    Option (List Directive) → List XPiece
  | none => [.code (head ++ [.special ';'])]
  | some ds => .code (head ++ [.space ' ', .special '{']) :: (xpieces hd xb (depth + 1) line ds ++ [.nl depth, .code [.special '}']])
end

/-- Every directive has an external builder that writes its block, or none and then the items of its head. -/
def XText (quote : Str → Str) (bld : Str → Option (Directive → Str)) (hd : Str → List Str → List Item) (xb : Directive → Option XBlock) (ds : List Directive) : Prop :=
  ∀ d, Within d ds → (xb d = none ∧ bld (quote d.directive) = none ∧ (¬ IsComment d → unlex (hd d.directive d.args) = headText quote d.directive d.args)) ∨
    ∃ b f, xb d = some b ∧ bld (quote d.directive) = some f ∧ f d = b.text

mutual
theorem xpieces_text {quote : Str → Str} {bld : Str → Option (Directive → Str)} {hd : Str → List Str → List Item} {xb : Directive → Option XBlock} (o : BuildOptions) (depth : Nat)
    (last : Int) : (ds : List Directive) → XText quote bld hd xb ds →
    xtext (marginOf o) (xpieces hd xb depth last ds) = (layout quote bld depth last ds).1 ++ moreLines o (layout quote bld depth last ds).2
  | [], _ => rfl
  | d :: ds, h => by
    have h2 : XText quote bld hd xb ds := fun x hx => h x (Within.mono hx (fun _ hm => List.mem_cons_of_mem _ hm))
    unfold xpieces layout
    by_cases hc : CommentOn d last
    · rw [if_pos hc, if_pos hc, xtext, xtext, xpieces_text o depth last ds h2]
      simp [unlex, Item.text]
    · have hl : (if (xb d).isSome then last else d.line) = (if (bld (quote d.directive)).isSome then last else d.line) := by
        rcases h d (.here (by simp)) with ⟨e1, e2, -⟩ | ⟨b, f, e1, e2, -⟩ <;> rw [e1, e2] <;> rfl
      rw [if_neg hc, if_neg hc, xtext, xtext_append, xpieces_text o depth _ ds h2, hl]
      have hdir := xpiecesDir_text (quote := quote) (bld := bld) (hd := hd) (xb := xb) o depth d (fun x hx => h x (Within.mono hx (by simp)))
      simp only [List.nil_append, moreLines_append, layoutDir_tail, hdir]
      simp
theorem xpiecesDir_text {quote : Str → Str} {bld : Str → Option (Directive → Str)} {hd : Str → List Str → List Item} {xb : Directive → Option XBlock} (o : BuildOptions)
    (depth : Nat) : (d : Directive) → XText quote bld hd xb [d] →
    moreLines o (layoutDir quote bld depth [] d) = '\n' :: marginOf o depth ++ xtext (marginOf o) (xpiecesDir hd xb depth d)
  | ⟨dd, dl, dargs, df, dincl, dblock, dcomm, dmap⟩, h => by
    unfold xpiecesDir layoutDir
    rcases h ⟨dd, dl, dargs, df, dincl, dblock, dcomm, dmap⟩ (.here (List.mem_singleton.mpr rfl)) with ⟨e1, e2, e3⟩ | ⟨b, f, e1, e2, e3⟩
    · simp only at e2
      rw [e1, e2]
      simp only
      cases hc : (if dd = c!"#" then dcomm else none) with
      | some text => simp [moreLines, render_eq, xtext]
      | none =>
        simp only
        have hn : ¬ IsComment ⟨dd, dl, dargs, df, dincl, dblock, dcomm, dmap⟩ := by
          rintro ⟨h1, h2⟩
          simp only at h1 h2
          rw [if_pos h1] at hc
          exact h2 hc
        exact xpiecesBlock_text o depth dd dargs dl dblock (e3 hn) (fun ds hb x hx => h x (.deep (List.mem_singleton.mpr rfl) hb hx))
    · simp only at e2
      rw [e1, e2]
      simp [moreLines, render_eq, xtext, e3]
theorem xpiecesBlock_text {quote : Str → Str} {bld : Str → Option (Directive → Str)} {hd : Str → List Str → List Item} {xb : Directive → Option XBlock} (o : BuildOptions)
    (depth : Nat) (name : Str) (args : List Str) (line : Int) : (b : Option (List Directive)) → unlex (hd name args) = headText quote name args →
    (∀ ds, b = some ds → XText quote bld hd xb ds) →
    moreLines o (layoutBlock quote bld depth [] (headText quote name args) line b) =
      '\n' :: marginOf o depth ++ xtext (marginOf o) (xpiecesBlock hd xb depth (hd name args) line b)
  | none, hh, _ => by
    have e : unlex [.special ';'] = c!";" := rfl
    simp [layoutBlock, xpiecesBlock, moreLines, render_eq, xtext, unlex_append, hh, e]
  | some ds, hh, h => by
    unfold layoutBlock xpiecesBlock
    have := xpieces_text o (depth + 1) line ds (h ds rfl)
    rw [xtext, xtext_append, this, unlex_append, hh]
    simp [moreLines_cons, moreLines_append, render_eq, xtext, unlex, Item.text, moreLines]
end

/-- What is needed of a tree. -/
def XTreeOk (ext : ExtLexers) (hd : Str → List Str → List Item) (xb : Directive → Option XBlock) (ds : List Directive) : Prop :=
  ∀ d, Within d ds → (IsComment d ∧ xb d = none ∧ CommentOk (d.comment.getD [])) ∨
    (¬ IsComment d ∧ xb d = none ∧ HeadOk (hd d.directive d.args) ∧ FreeItems ext (hd d.directive d.args)) ∨
    (¬ IsComment d ∧ d.block = none ∧ ∃ b, xb d = some b ∧ b.Ok ext ∧ ∀ line line', ∃ toks l,
      b.out line = toks ++ [⟨c!";", l, false, none⟩] ∧ Vals (⟨b.name, line', false, none⟩ :: toks) (itemVals (hd d.directive d.args)))

section
variable {hd : Str → List Str → List Item} {xb : Directive → Option XBlock}

theorem XTreeOk.tail {d : Directive} {ds : List Directive} (h : XTreeOk ext hd xb (d :: ds)) : XTreeOk ext hd xb ds :=
  fun x hx => h x (Within.mono hx (fun _ hm => List.mem_cons_of_mem _ hm))

theorem XTreeOk.block {d : Directive} {b ds : List Directive} (h : XTreeOk ext hd xb (d :: ds)) (hb : d.block = some b) : XTreeOk ext hd xb b :=
  fun x hx => h x (.deep (List.mem_cons_self ..) hb hx)

theorem xpiecesDir_comment {depth : Nat} {d : Directive} (h : IsComment d) (hx : xb d = none) : xpiecesDir hd xb depth d = [.comment (d.comment.getD [])] := by
  obtain ⟨dd, dl, dargs, df, dincl, dblock, dcomm, dmap⟩ := d
  obtain ⟨h1, h2⟩ := h
  simp only at h1 h2
  unfold xpiecesDir
  rw [hx]
  simp only
  rw [if_pos h1]
  cases dcomm with
  | none => exact absurd rfl h2
  | some c => rfl

theorem xpiecesDir_other {depth : Nat} {d : Directive} (h : ¬ IsComment d) (hx : xb d = none) :
    xpiecesDir hd xb depth d = xpiecesBlock hd xb depth (hd d.directive d.args) d.line d.block := by
  obtain ⟨dd, dl, dargs, df, dincl, dblock, dcomm, dmap⟩ := d
  unfold xpiecesDir
  rw [hx]
  have : (if dd = c!"#" then dcomm else none) = none := by
    by_cases h1 : dd = c!"#"
    · rw [if_pos h1]
      by_cases h2 : dcomm = none
      · exact h2
      · exact absurd ⟨h1, h2⟩ h
    · rw [if_neg h1]
  simp only [this]

theorem xpiecesDir_ext {depth : Nat} {d : Directive} {b : XBlock} (hx : xb d = some b) : xpiecesDir hd xb depth d = [.ext b] := by
  obtain ⟨dd, dl, dargs, df, dincl, dblock, dcomm, dmap⟩ := d
  unfold xpiecesDir
  rw [hx]

/-- After a comment there is the end of the line. -/
theorem CommentsApart.xflush {depth : Nat} {d : Directive} {ds : List Directive} (h : CommentsApart (d :: ds))
    (hc : IsComment d) {last : Int} (hl : last = d.line) {rest : List XPiece} (hr : XFlush rest) : XFlush (xpieces hd xb depth last ds ++ rest) := by
  cases ds with
  | nil => exact hr
  | cons y ds =>
    unfold xpieces
    rw [if_neg]
    · exact Or.inr ⟨_, _, rfl⟩
    · rintro ⟨h1, h2, h3⟩
      exact h _ (Or.inl rfl) [] d y ds rfl hc ⟨h1, h2⟩ (by rw [h3, hl])

theorem HeadOk.noComments {is : List Item} (h : HeadOk is) {tail : List Item} (ht : ∀ us e, .comment us e ∉ tail) : ∀ us e, .comment us e ∉ is ++ tail := by
  intro us e hm
  rcases List.mem_append.mp hm with hm | hm
  · exact h.simple _ hm
  · exact ht us e hm

theorem FreeItems.append {is : List Item} (h : FreeItems ext is) {tail : List Item} (ht : ∃ c, tail = [.special c] ∨ tail = [.space ' ', .special c]) :
    FreeItems ext (is ++ tail) :=
  fun v hv => h v (dirNames_append ht is.length is (Nat.le_refl _) _ v hv)

theorem xpieces_ok (ds : List Directive) : ∀ (depth : Nat) (last : Int) (rest : List XPiece), XTreeOk ext hd xb ds → CommentsApart ds →
    XFlush rest → XOk ext false rest → XOk ext false (xpieces hd xb depth last ds ++ rest) := by
  induction ds using listInd with
  | h0 => intro depth last rest _ _ _ h; exact h
  | h1 d ds ihb ih =>
    intro depth last rest ht ha hf hp
    have hd' := ht d (.here (List.mem_cons_self ..))
    unfold xpieces
    by_cases hc : CommentOn d last
    · rw [if_pos hc]
      have hic : IsComment d := ⟨hc.1, hc.2.1⟩
      refine ⟨closed_space, by simp, ?_, ?_, ha.xflush hic hc.2.2.symm hf, ih depth last rest ht.tail ha.tail hf hp⟩
      · intro v hv; simp [dirNames] at hv
      · rcases hd' with ⟨-, -, h⟩ | ⟨h, -⟩ | ⟨h, -⟩
        · exact h
        · exact absurd hic h
        · exact absurd hic h
    · rw [if_neg hc]
      rw [List.cons_append, List.append_assoc]
      show XOk ext true _
      rcases hd' with ⟨hic, hx, h⟩ | ⟨hic, hx, h, hfr⟩ | ⟨hic, hbn, b, hx, hb, -⟩
      · rw [xpiecesDir_comment hic hx, hx]
        exact ⟨h, ha.xflush hic rfl hf, ih depth d.line rest ht.tail ha.tail hf hp⟩
      · rw [xpiecesDir_other hic hx, hx]
        have hrest := ih depth d.line rest ht.tail ha.tail hf hp
        cases hb : d.block with
        | none => exact ⟨h.closed_semi, h.noComments (by simp), hfr.append ⟨_, Or.inl rfl⟩, hrest⟩
        | some b =>
          unfold xpiecesBlock
          rw [List.cons_append, List.append_assoc]
          refine ⟨h.closed_open, h.noComments (by simp), hfr.append ⟨_, Or.inr rfl⟩, ihb b hb (depth + 1) d.line _ (ht.block hb) (ha.block hb) (Or.inr ⟨_, _, rfl⟩) ?_⟩
          exact ⟨closed_brace, by simp, fun v hv => by simp [dirNames] at hv, hrest⟩
      · rw [xpiecesDir_ext hx]
        exact ⟨rfl, hb, ih depth _ rest ht.tail ha.tail hf hp⟩

theorem specThen_simple {k : Int → Int → Nat → Bool → List Tok} {is : List Item} (h : ∀ i ∈ is, Simple i) (line start : Int) (D : Nat) (dup g : Bool) (rest : List Item) :
    ∃ (toks : List Tok) (line' start' : Int) (g' : Bool), Vals toks (itemVals is) ∧
      specThen k line start D dup g (is ++ rest) = toks ++ specThen k line' start' D (if itemVals is = [] then dup else false) g' rest := by
  induction is generalizing line start dup g with
  | nil => exact ⟨[], line, start, g, rfl, rfl⟩
  | cons i is ih =>
    have ih := ih (fun j hj => h j (by simp [hj]))
    have hi := h i (by simp)
    cases i with
    | space c =>
      obtain ⟨toks, l, s, g', h1, h2⟩ := ih (line + nls [c]) start dup false
      exact ⟨toks, l, s, g', h1, by rw [List.cons_append, specThen, h2]; rfl⟩
    | word us =>
      obtain ⟨toks, l, s, g', h1, h2⟩ := ih (line + nls (textOf us)) (wordLine line us) false true
      refine ⟨⟨textOf us, wordLine line us, false, none⟩ :: toks, l, s, g', ?_, ?_⟩
      · simp only [Vals, List.map_cons, itemVals, List.cons.injEq, true_and]; exact h1
      · rw [List.cons_append, specThen, h2]; simp [itemVals]
    | quoted q us closed =>
      obtain rfl : closed = true := hi
      obtain ⟨toks, l, s, g', h1, h2⟩ := ih (line + nls (textOf us)) line false false
      refine ⟨⟨quotedValue q us, line, true, none⟩ :: toks, l, s, g', ?_, ?_⟩
      · simp only [Vals, List.map_cons, itemVals, List.cons.injEq, true_and]; exact h1
      · rw [List.cons_append, specThen, h2]; simp [itemVals]
    | special c => exact hi.elim
    | comment us e => exact hi.elim

theorem xpieces_toks (ds : List Directive) : ∀ (depth : Nat) (last : Int) (rest : List XPiece), XTreeOk ext hd xb ds → ∀ (line start : Int) (D : Nat) (dup : Bool),
    ∃ (toks : List Tok) (line' start' : Int) (dup' : Bool), Toks hd ds toks ∧
      xtoks (xpieces hd xb depth last ds ++ rest) line start D dup = toks ++ xtoks rest line' start' D dup' := by
  induction ds using listInd with
  | h0 => intro depth last rest _ line start D dup; exact ⟨[], line, start, dup, .nil, rfl⟩
  | h1 d ds ihb ih =>
    intro depth last rest ht line start D dup
    have hd' := ht d (.here (List.mem_cons_self ..))
    unfold xpieces
    by_cases hc : CommentOn d last
    · rw [if_pos hc]
      have hic : IsComment d := ⟨hc.1, hc.2.1⟩
      rw [List.cons_append, List.cons_append, xtoks, specThen, specThen, xtoks]
      obtain ⟨toks, l, s, dup', h1, h2⟩ := ih depth last rest ht.tail (line + nls [' ']) (line + nls [' ']) D dup
      exact ⟨_, l, s, dup', .comment hic h1, by rw [h2]; rfl⟩
    · rw [if_neg hc, List.cons_append, List.append_assoc, xtoks]
      rcases hd' with ⟨hic, hx, h⟩ | ⟨hic, hx, h, -⟩ | ⟨hic, hbn, b, hx, hb, hout⟩
      · rw [xpiecesDir_comment hic hx, hx, List.cons_append, List.nil_append, xtoks]
        obtain ⟨toks, l, s, dup', h1, h2⟩ := ih depth d.line rest ht.tail (line + 1) (line + 1) D dup
        exact ⟨_, l, s, dup', .comment (line := line + 1) hic h1, by simp [h2]⟩
      · rw [xpiecesDir_other hic hx, hx]
        cases hb : d.block with
        | none =>
          unfold xpiecesBlock
          rw [List.cons_append, List.nil_append, xtoks]
          obtain ⟨hs, l, s, g', v, e⟩ := specThen_simple (k := xtoks (xpieces hd xb depth d.line ds ++ rest)) h.simple (line + 1) start D dup false [.special ';']
          simp only [Option.isSome_none, Bool.false_eq_true, if_false]
          rw [e, if_neg h.some, specThen]
          obtain ⟨toks, l2, s2, dup2, h1, h2⟩ := ih depth d.line rest ht.tail l (if g' = true then s else l) D true
          refine ⟨_, l2, s2, dup2, .simple (line := if g' = true then s else l) hic v hb h1, ?_⟩
          simp [specThen, h2]
        | some b =>
          unfold xpiecesBlock
          simp only [Option.isSome_none, Bool.false_eq_true, if_false]
          rw [List.cons_append, List.append_assoc, xtoks]
          generalize hrest : xpieces hd xb (depth + 1) d.line b ++ ([.nl depth, .code [.special '}']] ++ (xpieces hd xb depth d.line ds ++ rest)) = more
          obtain ⟨hs, l, s, g', v, e⟩ := specThen_simple (k := xtoks more) h.simple (line + 1) start D dup false [.space ' ', .special '{']
          rw [e, if_neg h.some, specThen, specThen]
          obtain ⟨inner, l1, s1, dup1, h1, h2⟩ := ihb b hb (depth + 1) d.line ([.nl depth, .code [.special '}']] ++ (xpieces hd xb depth d.line ds ++ rest))
            (ht.block hb) (l + nls [' ']) (l + nls [' ']) (D + 1) true
          rw [hrest] at h2
          have hclose : xtoks ([.nl depth, .code [.special '}']] ++ (xpieces hd xb depth d.line ds ++ rest)) l1 s1 (D + 1) dup1 =
              ⟨c!"}", l1 + 1, false, none⟩ :: xtoks (xpieces hd xb depth d.line ds ++ rest) (l1 + 1) (l1 + 1) D true := by
            rw [List.cons_append, xtoks, List.cons_append, List.nil_append, xtoks, specThen]
            simp [specThen]
          obtain ⟨toks, l2, s2, dup2, h3, h4⟩ := ih depth d.line rest ht.tail (l1 + 1) (l1 + 1) D true
          refine ⟨_, l2, s2, dup2, .block (l1 := l + nls [' ']) (l2 := l1 + 1) hic v hb h1 h3, ?_⟩
          rw [hclose, h4] at h2
          simp [specThen, h2]
      · rw [xpiecesDir_ext hx, List.cons_append, List.nil_append, xtoks]
        obtain ⟨mid, lt, e1, e2⟩ := hout (line + 1 + nls [b.sep]) (line + 1)
        obtain ⟨toks, l2, s2, dup2, h1, h2⟩ := ih depth (if (xb d).isSome = true then last else d.line) rest ht.tail (line + 1 + nls [b.sep] + nls b.body) (line + 1) D false
        refine ⟨_, l2, s2, dup2, .simple (line := lt) hic e2 hbn h1, ?_⟩
        rw [e1, h2]
        simp

/-! ## The whole file -/

/-- The pieces of a file: those of its directives, without the first line feed. -/
def xfilePieces (hd : Str → List Str → List Item) (xb : Directive → Option XBlock) (ds : List Directive) : List XPiece :=
  match xpieces hd xb 0 0 ds with
  | .nl _ :: ps => ps
  | ps => ps

theorem xfilePieces_cases (ds : List Directive) :
    xpieces hd xb 0 0 ds = xfilePieces hd xb ds ∧ (ds = [] ∨ ∃ d r, ds = d :: r ∧ CommentOn d 0) ∨
    xpieces hd xb 0 0 ds = .nl 0 :: xfilePieces hd xb ds ∧ ∃ d r, ds = d :: r ∧ ¬ CommentOn d 0 := by
  unfold xfilePieces
  cases ds with
  | nil => exact Or.inl ⟨rfl, Or.inl rfl⟩
  | cons d ds =>
    rw [xpieces]
    by_cases hc : CommentOn d 0
    · rw [if_pos hc]; exact Or.inl ⟨rfl, Or.inr ⟨d, ds, rfl, hc⟩⟩
    · rw [if_neg hc]; exact Or.inr ⟨rfl, d, ds, rfl, hc⟩

theorem xfilePieces_text {quote : Str → Str} {bld : Str → Option (Directive → Str)} (indent : Nat) (tabs : Bool) (ds : List Directive) (h : XText quote bld hd xb ds) :
    xtext (margins indent tabs) (xfilePieces hd xb ds) = joinLines indent tabs (fileLines quote bld ds) := by
  have hp := xpieces_text { indent := (indent : Int), tabs := tabs } 0 0 ds h
  have hm : marginOf { indent := (indent : Int), tabs := tabs } = margins indent tabs := by
    funext d; simp [marginOf, margins]
  have hl : ∀ ls : List Line, moreLines { indent := (indent : Int), tabs := tabs } ls = ls.flatMap fun l => '\n' :: l.render indent tabs := by
    intro ls; simp [moreLines]
  rw [hm, hl] at hp
  unfold fileLines
  rcases xfilePieces_cases (hd := hd) (xb := xb) ds with ⟨e, hc⟩ | ⟨e, d, r, rfl, hc⟩
  · rw [e] at hp
    rw [hp]
    rcases hc with rfl | ⟨d, r, rfl, hc⟩
    · rfl
    · have : (layout quote bld 0 0 (d :: r)).1 ≠ [] := by rw [layout, if_pos hc]; simp
      rw [if_neg this]
      simp [joinLines, Line.render]
  · rw [e, xtext] at hp
    have h0 : margins indent tabs 0 = [] := by simp [margins]
    have h1 : (layout quote bld 0 0 (d :: r)).1 = [] := by rw [layout, if_neg hc]
    rw [h0, h1] at hp
    rw [h1, if_pos rfl, List.nil_append]
    cases hls : (layout quote bld 0 0 (d :: r)).2 with
    | nil => rw [hls] at hp; simp at hp
    | cons l ls =>
      rw [hls] at hp
      simpa [joinLines] using hp

/-- What may follow a file: nothing, or lines without tokens. -/
def Quiescent (ext : ExtLexers) (rest : List XPiece) : Prop := XFlush rest ∧ XOk ext false rest ∧ ∀ line start dup, xtoks rest line start 0 dup = []

theorem quiescent_nil : Quiescent ext [] := ⟨Or.inl rfl, trivial, fun _ _ _ => by simp [xtoks, specEOF]⟩

theorem quiescent_nl : Quiescent ext [.nl 0] := ⟨Or.inr ⟨0, [], rfl⟩, trivial, fun _ _ _ => by simp [xtoks, specEOF]⟩

theorem xfilePieces_ok {ds : List Directive} (ht : XTreeOk ext hd xb ds) (ha : CommentsApart ds) {rest : List XPiece} (hr : Quiescent ext rest) :
    XOk ext true (xfilePieces hd xb ds ++ rest) := by
  have h := xpieces_ok ds 0 0 rest ht ha hr.1 hr.2.1
  rcases xfilePieces_cases (hd := hd) (xb := xb) ds with ⟨e, -⟩ | ⟨e, -⟩
  · rw [e] at h; exact h.weaken
  · rw [e] at h; exact h

/-- The tokens of a file that begins at the given line. -/
theorem xfilePieces_toks {ds : List Directive} (ht : XTreeOk ext hd xb ds) {rest : List XPiece} (hr : Quiescent ext rest) (line start : Int) (dup : Bool) :
    Toks hd ds (xtoks (xfilePieces hd xb ds ++ rest) line start 0 dup) := by
  rcases xfilePieces_cases (hd := hd) (xb := xb) ds with ⟨e, -⟩ | ⟨e, -⟩
  · obtain ⟨toks, l, s, dup', h1, h2⟩ := xpieces_toks ds 0 0 rest ht line start 0 dup
    rw [e, hr.2.2, List.append_nil] at h2
    rw [h2]; exact h1
  · obtain ⟨toks, l, s, dup', h1, h2⟩ := xpieces_toks ds 0 0 rest ht (line - 1) start 0 dup
    rw [e, List.cons_append, xtoks, Int.sub_add_cancel, hr.2.2, List.append_nil] at h2
    rw [h2]; exact h1

/-- The text does not end with a line feed. -/
theorem xpieces_end {mg : Nat → Str} (ds : List Directive) : ∀ (last : Int), XTreeOk ext hd xb ds →
    (xtext mg (xpieces hd xb 0 last ds)).getLast? ≠ some '\n' := by
  induction ds with
  | nil => intro last _; simp [xpieces, xtext]
  | cons d ds ih =>
    intro last h hl
    have key : ∀ (a b : Str), b.getLast? ≠ none → b.getLast? ≠ some '\n' → (a ++ b).getLast? ≠ some '\n' := by
      intro a b h1 h2
      rw [List.getLast?_append]
      cases hb : b.getLast? with
      | none => exact absurd hb h1
      | some x => rw [hb] at h2; simpa using h2
    have hcom : ∀ a : Str, CommentOk (d.comment.getD []) → (a ++ '#' :: d.comment.getD []).getLast? ≠ some '\n' := by
      intro a hic
      refine key _ _ (by simp) ?_
      intro hx
      rcases List.mem_cons.mp (List.mem_of_getLast? hx) with h1 | h1
      · cases h1
      · exact hic.1 h1
    have hd' := h d (.here (List.mem_cons_self ..))
    have split2 : ∀ (a b : Str), a.getLast? ≠ some '\n' → b.getLast? ≠ some '\n' → (a ++ b).getLast? ≠ some '\n' := by
      intro a b h1 h2
      cases hb : b.getLast? with
      | none => rw [List.getLast?_eq_none_iff] at hb; rw [hb, List.append_nil]; exact h1
      | some x => exact key a b (by rw [hb]; simp) h2
    rw [xpieces] at hl
    by_cases hon : CommentOn d last
    · rw [if_pos hon, xtext, xtext, ← List.append_assoc] at hl
      refine split2 _ _ (hcom _ ?_) (ih last h.tail) hl
      rcases hd' with ⟨-, -, h⟩ | ⟨h, -⟩ | ⟨h, -⟩
      · exact h
      · exact absurd ⟨hon.1, hon.2.1⟩ h
      · exact absurd ⟨hon.1, hon.2.1⟩ h
    · rw [if_neg hon, xtext, xtext_append, ← List.append_assoc] at hl
      refine split2 _ _ ?_ (ih _ h.tail) hl
      rcases hd' with ⟨hic, hx, hh⟩ | ⟨hic, hx, hh, -⟩ | ⟨hic, hbn, b, hx, hb, hout⟩
      · rw [xpiecesDir_comment hic hx, xtext, xtext, List.append_nil]
        exact hcom _ hh
      · rw [xpiecesDir_other hic hx]
        cases hb : d.block with
        | none =>
          rw [xpiecesBlock, xtext, xtext, unlex_append, List.append_nil, ← List.append_assoc]
          exact key _ _ (by simp [unlex, Item.text]) (by simp [unlex, Item.text])
        | some b =>
          rw [xpiecesBlock, xtext, xtext_append, ← List.append_assoc, ← List.append_assoc]
          have e : xtext mg [.nl 0, .code [.special '}']] = ('\n' :: mg 0) ++ c!"}" := by simp [xtext, unlex, Item.text]
          rw [e, ← List.append_assoc]
          exact key _ _ (by simp) (by simp)
      · rw [xpiecesDir_ext hx, xtext, xtext, List.append_nil, XBlock.text, ← List.append_assoc]
        rw [show b.sep :: b.body = [b.sep] ++ b.body from rfl, ← List.append_assoc]
        exact key _ _ hb.ends.1 hb.ends.2

/-- The body of a config, as pieces. -/
theorem bodyText_pieces {isPrint : Char → Bool} {o : BuildOptions} {ds : List Directive} (hx : XText (Enquote isPrint) (buildSetup o).ext hd xb ds)
    (ht : XTreeOk ext hd xb ds) : bodyText isPrint o ds = xtext (margins (indentOf o) o.tabs) (xfilePieces hd xb ds) := by
  unfold bodyText
  rw [← xfilePieces_text _ _ ds hx]
  unfold dropFinalLF
  rw [if_neg]
  intro hl
  have := xpieces_end (mg := margins (indentOf o) o.tabs) ds 0 ht
  rcases xfilePieces_cases (hd := hd) (xb := xb) ds with ⟨e, -⟩ | ⟨e, -⟩
  · rw [e] at this; exact this hl
  · rw [e, xtext, List.getLast?_append, hl] at this
    exact this rfl

/-- The tokens of the body. -/
theorem bodyText_xtoks {isPrint : Char → Bool} {o : BuildOptions} {ds : List Directive} (hh : ∀ r, ext ('#' :: r) = none)
    (hx : XText (Enquote isPrint) (buildSetup o).ext hd xb ds) (ht : XTreeOk ext hd xb ds) (ha : CommentsApart ds) {rest : List XPiece} (hr : Quiescent ext rest) :
    Toks hd ds (lexWith ext (bodyText isPrint o ds ++ xtext (margins (indentOf o) o.tabs) rest)) := by
  rw [bodyText_pieces hx ht, ← xtext_append]
  have := loop_pieces (ext := ext) (margins_ok (indentOf o) o.tabs) hh _ (xfilePieces hd xb ds ++ rest) (Nat.le_refl _) ready_init (fun _ => rfl) (xfilePieces_ok ht ha hr)
  rw [show lexWith ext (xtext (margins (indentOf o) o.tabs) (xfilePieces hd xb ds ++ rest)) =
    loopE ext {} (xtext (margins (indentOf o) o.tabs) (xfilePieces hd xb ds ++ rest)) from rfl, this]
  exact xfilePieces_toks ht hr 1 1 false

/-- The tokens of the body after the header. -/
theorem header_xtoks {isPrint : Char → Bool} {o : BuildOptions} {ds : List Directive} (hh : ∀ r, ext ('#' :: r) = none)
    (hx : XText (Enquote isPrint) (buildSetup o).ext hd xb ds) (ht : XTreeOk ext hd xb ds) (ha : CommentsApart ds) {rest : List XPiece} (hr : Quiescent ext rest) :
    ∃ toks, lexWith ext (header ++ (bodyText isPrint o ds ++ xtext (margins (indentOf o) o.tabs) rest)) = headerToks ++ toks ∧ Toks hd ds toks := by
  refine ⟨_, ?_, xfilePieces_toks ht hr 5 3 false⟩
  rw [bodyText_pieces hx ht, ← headerItems_text, ← xtext_append]
  show loopE ext {} _ = _
  have hp := fun st line start depth dup (h : Ready st line start depth dup) (hf : flag st = true) =>
    loop_pieces (ext := ext) (margins_ok (indentOf o) o.tabs) hh _ (xfilePieces hd xb ds ++ rest) (Nat.le_refl _) h (fun _ => hf) (xfilePieces_ok ht ha hr)
  rw [ExtLex.loop_items (ext := ext) (E := true) (tail := [.word [.plain 'a']]) headerItems.length headerItems (Nat.le_refl _) ready_init (headerItems_wf (by decide +kernel))
    (.word _ _ _ _ hp) rfl ?_]
  · have h : ∀ s : Str, textOf (s.map U.plain) = s := textOf_plain
    unfold headerItems headerToks
    simp only [specThen, h, CommentEnd.text]
    rfl
  · intro v hv n h1 h2
    simp only [headerItems, dirNames, List.mem_cons, List.not_mem_nil, or_false] at hv
    rcases n with _ | ⟨c, n⟩
    · exact absurd rfl h1
    · have : c = '#' := by
        rcases hv with rfl | rfl | rfl <;> exact (List.cons_prefix_cons.mp h2).1
      subst this
      exact hh n

end

end Verif
