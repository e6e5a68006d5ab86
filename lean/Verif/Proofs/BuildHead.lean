import Verif.Proofs.BuildToks
import Verif.Spec.IfArgs
/-!
# The items of names and arguments
-/
namespace Verif
open Spec

/-- A closing parenthesis after an item. -/
def closeParen : Item → List Item
  | .word us => [.word (us ++ [.plain ')'])]
  | i => [i, .word [.plain ')']]

/-- An opening parenthesis before a word. -/
def openParen : Item → Item
  | .word us => .word (.plain '(' :: us)
  | i => i

/-- The item `i`, the items of arguments and a closing parenthesis. -/
def parenTail (it : Str → Item) (i : Item) : List Str → List Item
  | [] => closeParen i
  | b :: bs => i :: .space ' ' :: parenTail it (it b) bs

/-- The arguments of `if`. -/
def ifItems (it : Str → Item) : List Str → List Item
  | [] => [.word [.plain '(', .plain ')']]
  | a :: as => parenTail it (openParen (it a)) as

/-- The items of arguments, each after a space. -/
def argItems (it : Str → Item) (args : List Str) : List Item := args.flatMap fun a => [.space ' ', it a]

/-- The items of a name and arguments. -/
def headItems (quote : Str → Str) (it : Str → Item) (name : Str) (args : List Str) : List Item :=
  if quote name = c!"if" then it name :: .space ' ' :: ifItems it args else it name :: argItems it args

/-- A word. -/
def IsWordItem (i : Item) : Prop := ∃ us, i = .word us

/-! ## Text -/

theorem unlex_nil : unlex [] = [] := rfl

theorem closeParen_text (i : Item) : unlex (closeParen i) = i.text ++ c!")" := by
  cases i <;> simp [closeParen, unlex, Item.text, textOf, U.text]

theorem parenTail_text {quote : Str → Str} {it : Str → Item} (i : Item) (as : List Str) (h : ∀ a ∈ as, (it a).text = quote a) :
    unlex (parenTail it i as) = i.text ++ (as.map quote).flatMap (' ' :: ·) ++ c!")" := by
  induction as generalizing i with
  | nil => simp [parenTail, closeParen_text]
  | cons b bs ih =>
    rw [parenTail, unlex_cons, unlex_cons, ih (it b) (fun a ha => h a (by simp [ha])), h b (by simp)]
    simp [Item.text]

theorem openParen_text {i : Item} (h : IsWordItem i) : (openParen i).text = '(' :: i.text := by
  obtain ⟨us, rfl⟩ := h
  rfl

theorem headItems_text {quote : Str → Str} {it : Str → Item} (name : Str) (args : List Str) (h : ∀ a ∈ name :: args, (it a).text = quote a)
    (hif : quote name = c!"if" → ∀ a as, args = a :: as → IsWordItem (it a)) : unlex (headItems quote it name args) = headText quote name args := by
  have ha : ∀ a ∈ args, (it a).text = quote a := fun a hx => h a (by simp [hx])
  unfold headItems headText
  by_cases hn : quote name = c!"if"
  · rw [if_pos hn, if_pos hn, unlex_cons, unlex_cons, h name (by simp), hn]
    cases args with
    | nil => rfl
    | cons a as =>
      rw [ifItems, parenTail_text _ _ (fun b hb => ha b (by simp [hb])), openParen_text (hif hn a as rfl), ha a (by simp)]
      simp [Item.text, spaced]
  · rw [if_neg hn, if_neg hn, unlex_cons, h name (by simp), List.map_cons, spaced]
    congr 1
    clear hif h hn
    induction args with
    | nil => rfl
    | cons a as ih =>
      unfold argItems at ih ⊢
      rw [List.flatMap_cons, unlex_append, ih (fun b hb => ha b (by simp [hb])), List.map_cons, List.flatMap_cons, unlex_cons, unlex_cons, ha a (by simp), unlex_nil]
      simp [Item.text]

/-! ## Values -/

/-- The values of an unquoted word are no comments and no special characters. -/
def ValOk (v : Str × Bool) : Prop := ¬ (v.2 = false ∧ ∃ t, v.1 = '#' :: t) ∧ (v.2 = false → v.1 ≠ c!";" ∧ v.1 ≠ c!"{" ∧ v.1 ≠ c!"}")

theorem OneTok.simple {i : Item} {v : Str} (h : OneTok i v) : Simple i := by cases h <;> simp [Simple]

theorem OneTok.vals {i : Item} {v : Str} (h : OneTok i v) : ∃ q, itemVals [i] = [(v, q)] ∧ ValOk (v, q) := by
  cases h with
  | quoted hq hu => exact ⟨true, rfl, by simp [ValOk]⟩
  | @word us d hw hs hrun =>
    refine ⟨false, rfl, ?_⟩
    obtain ⟨u, us', rfl, hu⟩ := hs
    cases u with
    | esc x => simp [ValOk, textOf_cons, U.text]
    | plain c =>
      obtain ⟨h1, h2, h3, h4, h5⟩ := hu
      simp [isSpecialChar] at h2
      obtain ⟨⟨h6, h7⟩, h8⟩ := h2
      simp [ValOk, textOf_cons, U.text, h5, h6, h7, h8]

theorem OneTok.wf {i : Item} {v : Str} (h : OneTok i v) {rest : List Item} (hr : WF rest) (he : ∀ d, wordEnd (.out d) rest) : WF (i :: rest) := by
  cases h with
  | word hw hs hrun => exact ⟨hw, hs, ⟨_, hrun, he _⟩, hr⟩
  | quoted hq hu => exact ⟨hq, hu, by simp, hr⟩

theorem wf_blank {rest : List Item} (hr : WF rest) : WF (.space ' ' :: rest) := ⟨by decide, by decide, hr⟩

theorem run_append (p : WordPos) (a b : List U) : WordPos.run p (a ++ b) = (WordPos.run p a).bind fun p => WordPos.run p b := by
  induction a generalizing p with
  | nil => rfl
  | cons u a ih =>
    rw [List.cons_append, WordPos.run, WordPos.run]
    cases p.next u with
    | none => rfl
    | some q => exact ih q

theorem OneTok.opened {us : List U} {v : Str} (h : OneTok (.word us) v) : OneTok (openParen (.word us)) ('(' :: v) := by
  cases h with
  | word hw hs hrun =>
    have := OneTok.word (us := .plain '(' :: us) (d := _) (by
      intro u hu
      rcases List.mem_cons.mp hu with rfl | hu
      · exact ⟨by decide, by decide⟩
      · exact hw u hu) ⟨_, _, rfl, by simp [startsWord, isSpecialChar]; decide⟩ (by
        rw [WordPos.run]
        have : WordPos.next (.out false) (.plain '(') = some (.out false) := by decide
        rw [this]; exact hrun)
    simpa [openParen, textOf_cons, U.text] using this

theorem OneTok.closed {us : List U} {v : Str} (h : OneTok (.word us) v) : OneTok (.word (us ++ [.plain ')'])) (v ++ c!")") := by
  cases h with
  | word hw hs hrun =>
    obtain ⟨u, us', rfl, hu⟩ := hs
    have := OneTok.word (us := u :: us' ++ [.plain ')']) (d := false) (by
      intro x hx
      rcases List.mem_append.mp hx with hx | hx
      · exact hw x hx
      · rw [List.mem_singleton] at hx; subst hx; exact ⟨by decide, by decide⟩) ⟨u, us' ++ [.plain ')'], rfl, hu⟩ (by
        rw [run_append, hrun]
        rw [Option.bind_some, WordPos.run]
        have : ∀ d, WordPos.next (.out d) (.plain ')') = some (.out false) := by decide
        rw [this]; rfl)
    rw [textOf_append] at this
    exact this

/-- Items that can stand for the name and arguments. -/
structure ItemsOk (is : List Item) : Prop where
  simple : ∀ i ∈ is, Simple i
  vals : ∀ v ∈ itemVals is, ValOk v
  closed : ∀ rest, WF rest → (∀ b, wordEnd (.out b) rest) → WF (is ++ rest)

theorem ItemsOk.one {i : Item} {v : Str} (h : OneTok i v) : ItemsOk [i] := by
  obtain ⟨q, hv, ho⟩ := h.vals
  refine ⟨by simpa using h.simple, by rw [hv]; simpa using ho, fun rest hr he => h.wf hr he⟩

theorem itemVals_cons (i : Item) (is : List Item) : itemVals (i :: is) = itemVals [i] ++ itemVals is := itemVals_append [i] is

theorem closeParen_quoted (q : Char) (us : List U) (cl : Bool) : closeParen (.quoted q us cl) = [.quoted q us cl, .word [.plain ')']] := rfl

theorem itemVals_space (c : Char) (is : List Item) : itemVals (.space c :: is) = itemVals is := rfl

theorem ItemsOk.cons {i : Item} {v : Str} {is : List Item} (h : OneTok i v) (hs : ItemsOk is) : ItemsOk (i :: .space ' ' :: is) := by
  obtain ⟨q, hv, ho⟩ := h.vals
  refine ⟨?_, ?_, ?_⟩
  · intro j hj
    simp at hj
    rcases hj with rfl | rfl | hj
    · exact h.simple
    · trivial
    · exact hs.simple j hj
  · intro x hx
    rw [itemVals_cons, hv, itemVals_space, List.mem_append, List.mem_singleton] at hx
    rcases hx with rfl | hx
    · exact ho
    · exact hs.vals x hx
  · intro rest hr he
    exact h.wf (wf_blank (hs.closed rest hr he)) (fun d => by simp [wordEnd])

theorem closeParen_ok {i : Item} {v : Str} (h : OneTok i v) : ItemsOk (closeParen i) ∧ itemVals (closeParen i) ≠ [] := by
  have hp : OneTok (.word [.plain ')']) c!")" := by
    have := OneTok.word (us := [.plain ')']) (d := false) (by simp [U.wf]) ⟨_, _, rfl, by simp [startsWord, isSpecialChar]; decide⟩ (by decide)
    exact this
  cases i with
  | word us => exact ⟨ItemsOk.one h.closed, by simp [closeParen, itemVals]⟩
  | quoted q us cl =>
    refine ⟨⟨?_, ?_, ?_⟩, by simp [closeParen, itemVals]⟩
    · intro j hj
      simp [closeParen] at hj
      rcases hj with rfl | rfl
      · exact h.simple
      · trivial
    · intro x hx
      simp [closeParen, itemVals, textOf, U.text] at hx
      rcases hx with rfl | rfl <;> simp [ValOk]
    · intro rest hr he
      have := hp.wf hr he
      cases h with
      | quoted hq hu => exact ⟨hq, hu, by simp, this⟩
  | space c => cases h
  | special c => cases h
  | comment us e => cases h

theorem parenTail_ok {it : Str → Item} {i : Item} {v : Str} {as : List Str} (hi : OneTok i v) (h : ∀ a ∈ as, ∃ v, OneTok (it a) v) :
    ItemsOk (parenTail it i as) := by
  induction as generalizing i v with
  | nil => exact (closeParen_ok hi).1
  | cons b bs ih =>
    obtain ⟨w, hb⟩ := h b (by simp)
    exact ItemsOk.cons hi (ih hb (fun a ha => h a (by simp [ha])))

theorem argItems_ok {it : Str → Item} {i : Item} {v : Str} {as : List Str} (hi : OneTok i v) (h : ∀ a ∈ as, ∃ v, OneTok (it a) v) :
    ItemsOk (i :: argItems it as) := by
  induction as generalizing i v with
  | nil => exact ItemsOk.one hi
  | cons b bs ih =>
    obtain ⟨w, hb⟩ := h b (by simp)
    exact ItemsOk.cons hi (ih hb (fun a ha => h a (by simp [ha])))

theorem headItems_ok {quote : Str → Str} {it : Str → Item} {name : Str} {args : List Str} (h : ∀ a ∈ name :: args, ∃ v, OneTok (it a) v)
    (hif : quote name = c!"if" → ∀ a as, args = a :: as → IsWordItem (it a)) : HeadOk (headItems quote it name args) := by
  obtain ⟨v, hn⟩ := h name (by simp)
  have ha : ∀ a ∈ args, ∃ v, OneTok (it a) v := fun a hx => h a (by simp [hx])
  obtain ⟨q, hv, -⟩ := hn.vals
  have hr : ItemsOk (headItems quote it name args) := by
    unfold headItems
    by_cases hq : quote name = c!"if"
    · rw [if_pos hq]
      refine ItemsOk.cons hn ?_
      cases args with
      | nil =>
        have := OneTok.word (us := [.plain '(', .plain ')']) (d := false) (by simp [U.wf]) ⟨_, _, rfl, by simp [startsWord, isSpecialChar]; decide⟩ (by decide)
        exact ItemsOk.one this
      | cons a as =>
        obtain ⟨us, hus⟩ := hif hq a as rfl
        obtain ⟨w, hw⟩ := ha a (by simp)
        rw [ifItems]
        rw [hus] at hw ⊢
        exact parenTail_ok hw.opened (fun b hb => ha b (by simp [hb]))
    · rw [if_neg hq]; exact argItems_ok hn ha
  refine ⟨hr.simple, ?_, fun v hv => (hr.vals v hv).1, fun v hv => (hr.vals v hv).2, hr.closed⟩
  unfold headItems
  split <;> rw [itemVals_cons, hv] <;> simp

/-! ## The values are the name and arguments -/

/-- The first and last character are no white space. -/
def Tight (s : Str) : Prop := s ≠ [] ∧ (∀ x xs, s = x :: xs → isSpaceRune x = false) ∧ ∀ xs x, s = xs ++ [x] → isSpaceRune x = false

theorem OneTok.word_start {us : List U} {v : Str} (h : OneTok (.word us) v) : v ≠ [] ∧ ∀ x xs, v = x :: xs → isSpaceRune x = false := by
  cases h with
  | word hw hs hrun =>
    obtain ⟨u, us', rfl, hu⟩ := hs
    cases u with
    | esc c =>
      refine ⟨by simp [textOf_cons, U.text], ?_⟩
      intro x xs e
      rw [textOf_cons, U.text] at e
      cases e
      decide
    | plain c =>
      refine ⟨by simp [textOf_cons, U.text], ?_⟩
      intro x xs e
      rw [textOf_cons, U.text] at e
      cases e
      simpa using hu.1

theorem argItems_vals {it : Str → Item} {args : List Str} (h : ∀ a ∈ args, OneTok (it a) a) : (itemVals (argItems it args)).map Prod.fst = args := by
  induction args with
  | nil => rfl
  | cons a as ih =>
    obtain ⟨q, hv, -⟩ := (h a (by simp)).vals
    unfold argItems at ih ⊢
    rw [List.flatMap_cons, itemVals_append, List.map_append, ih (fun b hb => h b (by simp [hb]))]
    simp only [itemVals, hv]
    simp

/-- The values of the last arguments of `if`: with a parenthesis at the end of the last one, or as a word after it. -/
theorem parenTail_vals {it : Str → Item} {i : Item} {v : Str} {as : List Str} (hi : OneTok i v) (h : ∀ a ∈ as, OneTok (it a) a) :
    (∃ as' l, v :: as = as' ++ [l] ∧ (itemVals (parenTail it i as)).map Prod.fst = as' ++ [l ++ c!")"]) ∨
    (itemVals (parenTail it i as)).map Prod.fst = v :: as ++ [c!")"] := by
  induction as generalizing i v with
  | nil =>
    obtain ⟨q, hv, -⟩ := hi.vals
    cases i with
    | word us =>
      left
      refine ⟨[], v, rfl, ?_⟩
      obtain ⟨q, hv, -⟩ := hi.closed.vals
      simp [parenTail, closeParen, hv]
    | quoted q us cl =>
      right
      rw [parenTail, closeParen_quoted, itemVals_cons, hv]
      simp [itemVals, textOf, U.text]
    | space c => cases hi
    | special c => cases hi
    | comment us e => cases hi
  | cons b bs ih =>
    obtain ⟨q, hv, -⟩ := hi.vals
    have e : (itemVals (parenTail it i (b :: bs))).map Prod.fst = v :: (itemVals (parenTail it (it b) bs)).map Prod.fst := by
      rw [parenTail, itemVals_cons, hv, itemVals_space]; simp
    rcases ih (h b (by simp)) (fun a ha => h a (by simp [ha])) with ⟨as', l, h1, h2⟩ | h1
    · left
      exact ⟨v :: as', l, by rw [h1]; rfl, by rw [e, h2]; rfl⟩
    · right
      rw [e, h1]; rfl

theorem ltrim_refl {s : Str} (h : ∀ x xs, s = x :: xs → isSpaceRune x = false) : LTrim s s := ⟨[], rfl, by simp, h⟩
theorem rtrim_refl {s : Str} (h : ∀ xs x, s = xs ++ [x] → isSpaceRune x = false) : RTrim s s := ⟨[], by simp, by simp, h⟩

/-- The parentheses of `if` are removed again. -/
theorem ifItems_vals {it : Str → Item} {args : List Str} (hne : args ≠ []) (h : ∀ a ∈ args, OneTok (it a) a)
    (h1 : ∀ a as, args = a :: as → IsWordItem (it a))
    (h2 : ∀ as l, args = as ++ [l] → IsWordItem (it l) → ∀ xs x, l = xs ++ [x] → isSpaceRune x = false) :
    IfArgs ((itemVals (ifItems it args)).map Prod.fst) args := by
  cases args with
  | nil => exact absurd rfl hne
  | cons a as =>
    obtain ⟨us, hus⟩ := h1 a as rfl
    have ha := h a (by simp)
    rw [hus] at ha
    obtain ⟨hane, hastart⟩ := ha.word_start
    rw [ifItems, hus]
    rcases parenTail_vals (as := as) ha.opened (fun b hb => h b (by simp [hb])) with ⟨as', l, e1, e2⟩ | e1
    · rw [e2]
      have hword : ∀ s, a :: as = s ++ [l] → IsWordItem (it l) → ∀ xs x, l = xs ++ [x] → isSpaceRune x = false := fun s e => h2 s l e
      cases as' with
      | nil =>
        rw [List.nil_append, List.cons.injEq] at e1
        obtain ⟨rfl, rfl⟩ := e1
        exact IfArgs.one (ltrim_refl hastart) (rtrim_refl (h2 [] a rfl ⟨us, hus⟩)) hane
      | cons b bs =>
        rw [List.cons_append, List.cons.injEq] at e1
        obtain ⟨rfl, rfl⟩ := e1
        -- the last argument is a word, as the parenthesis is part of it
        have hl : l ≠ [] ∧ RTrim l l := by
          have hol := h l (by simp)
          by_cases hw : IsWordItem (it l)
          · obtain ⟨ws, hws⟩ := hw
            rw [hws] at hol
            exact ⟨hol.word_start.1, rtrim_refl (hword (a :: bs) rfl ⟨ws, hws⟩)⟩
          · exfalso
            -- a quoted last argument is followed by a parenthesis of its own
            have : ∀ (bs : List Str) (i : Item) (v : Str), OneTok i v → (∀ x ∈ bs ++ [l], OneTok (it x) x) →
                (itemVals (parenTail it i (bs ++ [l]))).length = bs.length + 3 := by
              intro bs
              induction bs with
              | nil =>
                intro i v hi hx
                obtain ⟨q, hv, -⟩ := hi.vals
                obtain ⟨q', hv', -⟩ := (hx l (by simp)).vals
                rw [List.nil_append, parenTail, parenTail, itemVals_cons, hv, itemVals_space]
                cases hil : it l with
                | word ws => exact absurd ⟨ws, hil⟩ hw
                | quoted => rw [hil] at hv'; rw [closeParen_quoted, itemVals_cons, hv']; simp [itemVals]
                | space => rw [hil] at hv'; simp [itemVals] at hv'
                | special => rw [hil] at hv'; simp [itemVals] at hv'
                | comment => rw [hil] at hv'; simp [itemVals] at hv'
              | cons b bs ih =>
                intro i v hi hx
                obtain ⟨q, hv, -⟩ := hi.vals
                rw [List.cons_append, parenTail, itemVals_cons, hv, itemVals_space, List.length_append, ih (it b) b (hx b (by simp)) (fun x hx' => hx x (by simp at hx' ⊢; tauto))]
                simp; omega
            have hlen := this bs (openParen (.word us)) _ ha.opened (fun x hx => h x (by simp at hx ⊢; tauto))
            have hlen2 := congrArg List.length e2
            rw [List.length_map, hlen] at hlen2
            simp at hlen2
        have := IfArgs.more (mid := bs) (ltrim_refl hastart) hl.2
        simpa [nonempty, hane, hl.1] using this
    · rw [e1]
      have hempty : RTrim [] [] := rtrim_refl (by intro xs x e; simp at e)
      have := IfArgs.more (mid := as) (ltrim_refl hastart) hempty
      simpa [nonempty, hane] using this

end Verif
