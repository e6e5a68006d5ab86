import Verif.Props.NginxBuild
import Verif.Props.Source
import Verif.Props.Rebuild
/-!
# C101: parsing and building does not change what nginx reads
-/
namespace Verif
open Spec

/-! ## Comments of the lexer -/

/-- Comments are within one line. -/
theorem comment_one_line {items : List Item} (hw : WF items) : ∀ {line start : Int} {depth : Nat} {dup g : Bool}, ∀ t ∈ specToks line start depth dup g items, ∀ text, CommentTok t text → '\n' ∉ text := by
  induction items with
  | nil =>
    intro line start depth dup g t ht text hc
    simp only [specToks] at ht
    split at ht
    · rw [List.mem_singleton] at ht; subst ht; cases hc.2
    · cases ht
  | cons i rest ih =>
    intro line start depth dup g t ht text hc
    cases i with
    | space c => exact ih hw.2.2 t ht text hc
    | word us =>
      simp only [specToks, List.mem_cons] at ht
      rcases ht with rfl | ht
      · obtain ⟨u, us', rfl, hu⟩ := hw.2.1
        have h2 := hc.2
        cases u with
        | plain c => simp [textOf, U.text] at h2; exact absurd h2.1 hu.2.2.2.2
        | esc c => simp [textOf, U.text] at h2
      · exact ih hw.2.2.2 t ht text hc
    | quoted q us closed =>
      simp only [specToks, List.mem_append] at ht
      rcases ht with ht | ht
      · split at ht
        · rw [List.mem_singleton] at ht; subst ht; cases hc.1
        · cases ht
      · exact ih hw.2.2.2 t ht text hc
    | comment us e =>
      simp only [specToks, List.mem_cons] at ht
      rcases ht with rfl | ht
      · obtain ⟨-, rfl⟩ := List.cons.inj hc.2
        exact no_nl_comment fun u hu => (hw.1 u hu).2
      · exact ih hw.2.2 t ht text hc
    | special c =>
      simp only [specToks] at ht
      split at ht
      · rw [List.mem_singleton] at ht; subst ht; cases hc.2
      · split at ht
        · rw [List.mem_singleton] at ht; subst ht; cases hc.2
        · rcases List.mem_cons.mp ht with rfl | ht
          · have h2 := (List.cons.inj hc.2).1
            have h1 := hw.1
            rw [h2] at h1
            exact absurd h1 (by decide)
          · exact ih hw.2 t ht text hc

/-! ## What nginx accepts are statements -/

/-- `;` and `{` end a statement, `}` does not, and blocks are open when they are closed. -/
def NgxOrder : Bool → Nat → List NgxTok → Prop
  | _, _, [] => True
  | _, k, .word _ _ :: r => NgxOrder true k r
  | b, k, .special c :: r => (c = '}' ∧ b = false ∧ k ≠ 0 ∨ (c = ';' ∨ c = '{') ∧ b = true) ∧ NgxOrder false (if c = '{' then k + 1 else if c = '}' then k - 1 else k) r

/-- After a closing quote there is a parameter. -/
def NgxInv (st : NgxSt) : Prop := st.pos = .need → st.args ≠ 0

theorem ngx_order_start {st st' : NgxSt} {c : Char} {o : List NgxTok} (h : ngxStart st c = some (o, st')) :
    NgxInv st' ∧ ∀ r, NgxOrder (decide (st'.args ≠ 0)) st'.depth r → NgxOrder (decide (st.args ≠ 0)) st.depth (o ++ r) := by
  unfold ngxStart at h
  split_ifs at h with h1 h2 h3 h4 h5 h6 h7 h8
  · cases h; exact ⟨fun x => (by cases x), fun r hr => hr⟩
  · simp only [ngxEnd, Option.some.injEq, Prod.mk.injEq] at h
    obtain ⟨rfl, rfl⟩ := h
    refine ⟨fun x => (by cases x), fun r hr => ⟨.inr ⟨h2, by simpa using h3⟩, ?_⟩⟩
    have h9 : c ≠ '}' := by rcases h2 with rfl | rfl <;> decide
    simpa [h9] using hr
  · cases h
    subst h4
    rw [not_or, not_not] at h5
    refine ⟨fun x => (by cases x), fun r hr => ⟨.inl ⟨rfl, by simp [h5.1], h5.2⟩, by simpa using hr⟩⟩
  all_goals (cases h; exact ⟨fun x => (by cases x), fun r hr => hr⟩)

theorem ngx_order_step {st st' : NgxSt} {c : Char} {o : List NgxTok} (hi : NgxInv st) (h : ngxStep st c = some (o, st')) :
    NgxInv st' ∧ ∀ r, NgxOrder (decide (st'.args ≠ 0)) st'.depth r → NgxOrder (decide (st.args ≠ 0)) st.depth (o ++ r) := by
  have ends : ∀ {b : Bool} {r : List NgxTok}, c = ';' ∨ c = '{' → b = true → NgxOrder (decide ((0 : Nat) ≠ 0)) (if c = '{' then st.depth + 1 else st.depth) r →
      NgxOrder b st.depth (.special c :: r) := by
    intro b r h2 hb hr
    have h9 : c ≠ '}' := by rcases h2 with rfl | rfl <;> decide
    exact ⟨.inr ⟨h2, hb⟩, by simpa [h9] using hr⟩
  unfold ngxStep at h
  split at h
  · cases h
    split
    · exact ⟨fun x => (by cases x), fun r hr => hr⟩
    · exact ⟨hi, fun r hr => hr⟩
  · rename_i hp
    have ha := hi hp
    split_ifs at h with h1 h2 h3
    · cases h; exact ⟨fun x => (by cases x), fun r hr => hr⟩
    · simp only [ngxEnd, Option.some.injEq, Prod.mk.injEq] at h
      obtain ⟨rfl, rfl⟩ := h
      exact ⟨fun x => (by cases x), fun r hr => ends h2 (by simpa using ha) hr⟩
    · exact ngx_order_start h
  · exact ngx_order_start h
  · rename_i hp
    have hn : ∀ {s : NgxSt}, s.pos = st.pos → NgxInv s := fun e x => by rw [e, hp] at x; cases x
    split_ifs at h with h1 h2 h3 h4 h5 h6
    · cases h; exact ⟨hn rfl, fun r hr => hr⟩
    · cases h; exact ⟨hn rfl, fun r hr => hr⟩
    · cases h; exact ⟨hn rfl, fun r hr => hr⟩
    · cases h; exact ⟨hn rfl, fun r hr => hr⟩
    · cases h
      exact ⟨fun x => (by cases x), fun r hr => by simpa [NgxOrder] using hr⟩
    · simp only [ngxEnd, Option.map_some, Option.some.injEq, Prod.mk.injEq] at h
      obtain ⟨rfl, rfl⟩ := h
      exact ⟨fun x => (by cases x), fun r hr => ends h6 rfl hr⟩
    · cases h; exact ⟨hn rfl, fun r hr => hr⟩
  · rename_i hp
    have hn : ∀ {s : NgxSt}, s.pos = st.pos → NgxInv s := fun e x => by rw [e, hp] at x; cases x
    split_ifs at h with h1 h2 h3
    · cases h; exact ⟨hn rfl, fun r hr => hr⟩
    · cases h; exact ⟨hn rfl, fun r hr => hr⟩
    · cases h
      exact ⟨fun _ => Nat.succ_ne_zero _, fun r hr => by simpa [NgxOrder] using hr⟩
    · cases h; exact ⟨hn rfl, fun r hr => hr⟩

theorem ngx_order : ∀ (s : Str) {st : NgxSt} {toks : List NgxTok}, NgxInv st → ngxRun st s = some toks → NgxOrder (decide (st.args ≠ 0)) st.depth toks
  | [], st, toks, _, h => by
    unfold ngxRun at h
    split at h
    · cases h; trivial
    · cases h
  | c :: cs, st, toks, hi, h => by
    rw [ngxRun, Option.bind_eq_some_iff] at h
    obtain ⟨⟨o, st'⟩, h1, h2⟩ := h
    obtain ⟨r, h3, rfl⟩ := Option.map_eq_some_iff.mp h2
    obtain ⟨h4, h5⟩ := ngx_order_step hi h1
    exact h5 r (ngx_order cs h4 h3)

theorem NgxOrder.special {c : Char} : ∀ {toks : List NgxTok} {b : Bool} {k : Nat}, NgxOrder b k toks → .special c ∈ toks → c = '}' ∨ c = ';' ∨ c = '{'
  | .word _ _ :: r, b, k, h, hm => by
    rcases List.mem_cons.mp hm with e | hm
    · cases e
    · exact NgxOrder.special (toks := r) h hm
  | .special d :: r, b, k, h, hm => by
    rcases List.mem_cons.mp hm with e | hm
    · cases e
      rcases h.1 with h1 | h1
      · exact .inl h1.1
      · exact .inr h1.1
    · exact NgxOrder.special h.2 hm

/-- Before `}` there is no parameter. -/
theorem NgxOrder.before {w : Str} {q : Option Char} {rest : List NgxTok} : ∀ {pre : List NgxTok} {b : Bool} {k : Nat}, ¬ NgxOrder b k (pre ++ .word w q :: .special '}' :: rest)
  | [], b, k, h => by
    rcases h.1 with h1 | h1
    · cases h1.2.1
    · exact absurd h1.1 (by decide)
  | .word _ _ :: pre, b, k, h => NgxOrder.before (pre := pre) h
  | .special _ :: pre, b, k, h => NgxOrder.before (pre := pre) h.2

/-! ## The tokens of the tree -/

/-- A token of the lexer as nginx would understand it. -/
def tokMeaning (t : Tok) : Str × Bool := (t.value, t.isTerm)

theorem ngxTree_append : ∀ a b : List Directive, ngxTree (a ++ b) = ngxTree a ++ ngxTree b
  | [], b => by simp [ngxTree]
  | d :: a, b => by rw [List.cons_append, ngxTree, ngxTree, ngxTree_append a b, List.append_assoc]

theorem ngxDir_comment {d : Directive} {text : Str} {line : Int} (h : CommentDir d text line) : ngxDir d = [] := by
  obtain ⟨a, b, c, e, f, g, i, j⟩ := d
  obtain ⟨h1, -, -, h2, -⟩ := h
  simp only at h1 h2
  simp [ngxDir, h1, h2]

theorem ngxTree_trailing {pc : Bool} {d : Directive} {texts : List Str} {cs : List Directive} (h : Trailing pc d texts cs) : ngxTree cs = [] := by
  unfold Trailing at h
  split at h
  · clear * - h
    induction h with
    | nil => simp [ngxTree]
    | cons h1 _ ih => rw [ngxTree, ngxDir_comment h1, ih]; rfl
  · subst h; simp [ngxTree]

theorem ngxDir_stmt {d : Directive} (h : d.comment = none) : ngxDir d = (ngxParams d.directive d.args).map (·, false) ++ ngxBody d.block := by
  obtain ⟨a, b, c, e, f, g, i, j⟩ := d
  simp only at h
  subst h
  simp only [ngxDir, Option.isSome_none, Bool.false_eq_true, and_false, if_false]

theorem commentTok_iff {t : Tok} : commentTok t = true ↔ ∃ text, CommentTok t text := by
  obtain ⟨v, l, q, e⟩ := t
  unfold commentTok CommentTok Mark
  cases v with
  | nil => simp
  | cons c v =>
    cases q with
    | true => simp
    | false =>
      refine ⟨fun h => ⟨v, rfl, ?_⟩, fun ⟨x, _, h⟩ => ?_⟩
      · rw [show c = '#' by simpa using h]
      · rw [(List.cons.inj h).1]; rfl

theorem comment_drop {t : Tok} {text : Str} (h : CommentTok t text) (toks : List Tok) : (t :: toks).filter (fun t => !commentTok t) = toks.filter (fun t => !commentTok t) :=
  List.filter_cons_of_neg (by simp [commentTok_iff.mpr ⟨text, h⟩])

theorem word_keep {t : Tok} (h : WordTok t) (toks : List Tok) : (t :: toks).filter (fun t => !commentTok t) = t :: toks.filter (fun t => !commentTok t) := by
  refine List.filter_cons_of_pos ?_
  cases hc : commentTok t with
  | false => rfl
  | true => obtain ⟨x, hx⟩ := commentTok_iff.mp hc; exact absurd hx (h.1 x)

theorem mark_keep {t : Tok} {v : Str} (h : Mark t v) (hv : v.head? ≠ some '#') (toks : List Tok) : (t :: toks).filter (fun t => !commentTok t) = t :: toks.filter (fun t => !commentTok t) := by
  refine List.filter_cons_of_pos ?_
  cases hc : commentTok t with
  | false => rfl
  | true => obtain ⟨x, hx⟩ := commentTok_iff.mp hc; exact absurd (by rw [← h.2, hx.2]; rfl) hv

theorem word_meaning {t : Tok} (h : WordTok t) : tokMeaning t = (t.value, false) := by
  have h1 : t.isTerm = false := by
    obtain ⟨v, l, q, e⟩ := t
    obtain ⟨-, h1, h2, h3⟩ := h
    cases q with
    | true => rfl
    | false =>
      simp only [Mark, true_and] at h1 h2 h3
      simp [Tok.isTerm, h1, h2, h3]
  rw [tokMeaning, h1]

theorem mark_meaning {t : Tok} {v : Str} (h : Mark t v) (hv : v = c!"{" ∨ v = c!"}" ∨ v = c!";") : tokMeaning t = (v, true) := by
  obtain ⟨w, l, q, e⟩ := t
  obtain ⟨h1, h2⟩ := h
  simp only at h1 h2
  subst h1 h2
  rcases hv with rfl | rfl | rfl <;> rfl

theorem words_meaning {mid : List Tok} {args texts : List Str} (h : Words mid args texts) (toks : List Tok) :
    ((mid ++ toks).filter fun t => !commentTok t).map tokMeaning = args.map (·, false) ++ (toks.filter fun t => !commentTok t).map tokMeaning := by
  induction h with
  | nil => rfl
  | word h1 _ ih => rw [List.cons_append, word_keep h1, List.map_cons, ih, word_meaning h1]; rfl
  | comment h1 _ ih => rw [List.cons_append, comment_drop h1, ih]

theorem comment_fine {isPrint : Char → Bool} {d : Directive} {text : Str} {line : Int} (h : CommentDir d text line) (ht : '\n' ∉ text) : NgxFine isPrint d := by
  unfold NgxFine
  rw [if_pos ⟨h.1, by rw [h.2.2.2.1]; rfl⟩, h.2.2.2.1]
  exact ht

theorem words_fine {P : Str → Prop} {Q : Str → Prop} {mid : List Tok} {args texts : List Str} (h : Words mid args texts)
    (hc : ∀ t ∈ mid, ∀ text, CommentTok t text → Q text) (hs : ∀ t ∈ mid, WordTok t → P t.value) : (∀ a ∈ args, P a) ∧ ∀ x ∈ texts, Q x := by
  induction h with
  | nil => exact ⟨fun _ h => absurd h List.not_mem_nil, fun _ h => absurd h List.not_mem_nil⟩
  | @word t mid args texts h1 _ ih =>
    obtain ⟨i1, i2⟩ := ih (fun t ht => hc t (.tail _ ht)) fun t ht => hs t (.tail _ ht)
    refine ⟨fun a ha => ?_, i2⟩
    rcases List.mem_cons.mp ha with rfl | ha
    · exact hs t (.head _) h1
    · exact i1 a ha
  | @comment t text mid args texts h1 _ ih =>
    obtain ⟨i1, i2⟩ := ih (fun t ht => hc t (.tail _ ht)) fun t ht => hs t (.tail _ ht)
    refine ⟨i1, fun x hx => ?_⟩
    rcases List.mem_cons.mp hx with rfl | hx
    · exact hc t (.head _) _ h1
    · exact i2 x hx

theorem trailing_fine {isPrint : Char → Bool} {pc : Bool} {d : Directive} {texts : List Str} {cs : List Directive} (h : Trailing pc d texts cs) (ht : ∀ x ∈ texts, '\n' ∉ x) :
    ∀ c, Within c cs → NgxFine isPrint c := by
  unfold Trailing at h
  split at h
  · clear * - h ht
    induction h with
    | nil => intro c hc; exact absurd hc within_nil
    | cons h1 _ ih =>
      intro c hc
      rcases within_cons.mp hc with rfl | ⟨b, e, -⟩ | hc
      · exact comment_fine h1 (ht _ (.head _))
      · rw [h1.2.2.2.2] at e; cases e
      · exact ih (fun x hx => ht x (.tail _ hx)) c hc
  · subst h; intro c hc; exact absurd hc within_nil

/-! ## The parentheses of `if` -/

/-- The parameters of an `if` in parentheses: at least one, none needs quotes, and there are no blanks next to the parentheses. -/
def IfForm (isPrint : Char → Bool) (args : List Str) : Prop := ∃ as, as ≠ [] ∧ args = parenWords as ∧ ∀ a ∈ as, needsQuote a = false ∧ NgxString isPrint a

/-- Every `if` is written so. -/
def IfGood (isPrint : Char → Bool) (l : List (Str × Bool)) : Prop :=
  ∀ pre args e post, l = pre ++ (c!"if", false) :: (args.map (·, false) ++ (e, true) :: post) → IfForm isPrint args

theorem LTrim_id {s r : Str} (hs : ∀ x ∈ s, isSpaceRune x = false) (h : LTrim s r) : r = s := by
  obtain ⟨w, rfl, hw, -⟩ := h
  cases w with
  | nil => rfl
  | cons x w =>
    have h1 := hs x (by simp)
    rw [hw x (.head _)] at h1; cases h1

theorem RTrim_id {s r : Str} (hs : ∀ x ∈ s, isSpaceRune x = false) (h : RTrim s r) : r = s := by
  obtain ⟨w, rfl, hw, -⟩ := h
  cases w with
  | nil => simp
  | cons x w =>
    have h1 := hs x (by simp)
    rw [hw x (.head _)] at h1; cases h1

theorem closeLast_snoc : ∀ (b : Str) (rest : List Str), ∃ mid z, b :: rest = mid ++ [z] ∧ closeLast b rest = mid ++ [z ++ c!")"]
  | b, [] => ⟨[], b, rfl, rfl⟩
  | b, c :: rest => by
    obtain ⟨mid, z, h1, h2⟩ := closeLast_snoc c rest
    exact ⟨b :: mid, z, by rw [h1]; rfl, by rw [closeLast, h2]; rfl⟩

theorem ifArgs_parenWords {as r : List Str} (hne : as ≠ []) (hs : ∀ a ∈ as, a ≠ [] ∧ ∀ x ∈ a, isSpaceRune x = false) (h : IfArgs (parenWords as) r) : r = as := by
  have non : ∀ a, a ∈ as → nonempty a = [a] := fun a ha => by rw [nonempty, if_neg (hs a ha).1]
  generalize hx : parenWords as = x at h
  match as, hne with
  | [a], _ =>
    have hx : ['(' :: a ++ c!")"] = x := hx
    cases h with
    | plain hp =>
      subst hx
      exact absurd ⟨⟨a ++ c!")", rfl⟩, ⟨'(' :: a, rfl⟩⟩ hp
    | @one a' b c h1 h2 h3 =>
      have e : a = a' := List.append_cancel_right (List.cons.inj (List.cons.inj hx).1).2
      subst e
      have e1 := LTrim_id (hs a (.head _)).2 h1
      subst e1
      rw [RTrim_id (hs _ (.head _)).2 h2]
    | more => exact absurd (congrArg List.length hx) (by simp)
  | a :: b :: rest, _ =>
    obtain ⟨mid, z, h1, h2⟩ := closeLast_snoc b rest
    have hx : ('(' :: a) :: closeLast b rest = x := hx
    rw [h2] at hx
    have hz : z ∈ a :: b :: rest := by rw [h1]; simp
    cases h with
    | plain hp =>
      subst hx
      exact absurd ⟨⟨a, rfl⟩, ⟨z, by rw [← List.cons_append, List.getLast?_append]; rfl⟩⟩ hp
    | one => exact absurd (congrArg List.length hx) (by simp)
    | @more a1 a2 mid' b1 b2 k1 k2 =>
      obtain ⟨e1, e2⟩ := List.cons.inj hx
      obtain ⟨e3, e4⟩ := List.append_inj' e2 rfl
      have e5 : z = b1 := List.append_cancel_right (List.cons.inj e4).1
      have e6 : a = a1 := (List.cons.inj e1).2
      subst e3 e5 e6
      have e7 := LTrim_id (hs a (.head _)).2 k1
      have e8 := RTrim_id (hs z hz).2 k2
      subst e7 e8
      rw [non _ (.head _), non _ hz, h1]
      rfl

theorem unquoted_blank {isPrint : Char → Bool} {a : Str} (h : needsQuote a = false) (hs : NgxString isPrint a) : a ≠ [] ∧ ∀ x ∈ a, isSpaceRune x = false :=
  ⟨fun e => by rw [e] at h; exact absurd h (by decide), needsQuote_no_space (fun hx => (hs.1 _ hx).1 rfl) h⟩

/-- Name and arguments of a statement: the tokens, what nginx should read, and that Build can write them. -/
theorem heads_all {isPrint : Char → Bool} {t : Tok} {mid : List Tok} {d : Directive} {texts : List Str} (h : Heads t mid d texts) (hmap : d.directive = c!"if" → d.isMapBlockParameter = false)
    (hc : ∀ u ∈ t :: mid, ∀ text, CommentTok u text → '\n' ∉ text) (hs : ∀ u ∈ t :: mid, WordTok u → NgxString isPrint u.value) :
    ∃ args, (∀ toks : List Tok, ((t :: (mid ++ toks)).filter fun t => !commentTok t).map tokMeaning = (d.directive, false) :: (args.map (·, false) ++ (toks.filter fun t => !commentTok t).map tokMeaning)) ∧
      (∀ x ∈ texts, '\n' ∉ x) ∧ ((d.directive = c!"if" → IfForm isPrint args) → ngxParams d.directive d.args = d.directive :: args ∧ NgxFine isPrint d) := by
  obtain ⟨args, h1, h2⟩ := h.args
  obtain ⟨h3, h4⟩ := words_fine h1 (P := NgxString isPrint) (Q := ('\n' ∉ ·)) (fun u hu => hc u (.tail _ hu)) (fun u hu => hs u (.tail _ hu))
  have hname : NgxString isPrint d.directive := by rw [h.name]; exact hs t (.head _) h.word
  refine ⟨args, fun toks => ?_, h4, fun hform => ?_⟩
  · rw [word_keep h.word, List.map_cons, words_meaning h1, word_meaning h.word, h.name]
  · by_cases hif : d.directive = c!"if"
    · rw [if_pos ⟨hif, hmap hif⟩] at h2
      obtain ⟨as, g1, rfl, g2⟩ := hform hif
      have e := ifArgs_parenWords g1 (fun a ha => unquoted_blank (g2 a ha).1 (g2 a ha).2) h2
      refine ⟨by rw [ngxParams, if_pos hif, e], ?_⟩
      unfold NgxFine
      rw [if_neg (by rw [h.noComment]; simp), e]
      refine ⟨fun s hx => ?_, fun _ a ha => (g2 a ha).1⟩
      rcases List.mem_cons.mp hx with rfl | hx
      · exact hname
      · exact (g2 s hx).2
    · rw [if_neg fun x => hif x.1] at h2
      refine ⟨by rw [ngxParams, if_neg hif, h2], ?_⟩
      unfold NgxFine
      rw [if_neg (by rw [h.noComment]; simp)]
      refine ⟨fun s hx => ?_, fun e => absurd e hif⟩
      rcases List.mem_cons.mp hx with rfl | hx
      · exact hname
      · exact h3 s (h2 ▸ hx)

/-- The tokens a tree was read from mean the tree to nginx, and the tree is one that Build can write. -/
theorem source_ngx {isPrint : Char → Bool} {pc : Bool} {ds : List Directive} {toks : List Tok} (h : Source pc ds toks) :
    (∀ d, Within d ds → d.directive = c!"if" → d.isMapBlockParameter = false) →
    (∀ t ∈ toks, ∀ text, CommentTok t text → '\n' ∉ text) → (∀ t ∈ toks, WordTok t → NgxString isPrint t.value) →
    ∀ (pre : List (Str × Bool)) (more : List Tok), IfGood isPrint (pre ++ ((toks ++ more).filter fun t => !commentTok t).map tokMeaning) →
      ((toks ++ more).filter fun t => !commentTok t).map tokMeaning = ngxTree ds ++ (more.filter fun t => !commentTok t).map tokMeaning ∧ ∀ d, Within d ds → NgxFine isPrint d := by
  induction h with
  | nil => intro _ _ _ pre more _; exact ⟨by simp [ngxTree], fun d hd => absurd hd within_nil⟩
  | @comment t text d ds toks _ h1 h2 _ ih =>
    intro hm hc hs pre more hg
    rw [List.cons_append, comment_drop h1] at hg ⊢
    obtain ⟨i1, i2⟩ := ih (fun d hd => hm d (within_cons.mpr (.inr (.inr hd)))) (fun t ht => hc t (.tail _ ht)) (fun t ht => hs t (.tail _ ht)) pre more hg
    refine ⟨by rw [i1, ngxTree, ngxDir_comment h2]; rfl, fun d' hd => ?_⟩
    rcases within_cons.mp hd with rfl | ⟨b, e, -⟩ | hd
    · exact comment_fine h2 (hc t (.head _) _ h1)
    · rw [h2.2.2.2.2] at e; cases e
    · exact i2 d' hd
  | skip _ h1 _ ih =>
    intro hm hc hs pre more hg
    rw [List.cons_append, comment_drop h1] at hg ⊢
    exact ih hm (fun t ht => hc t (.tail _ ht)) (fun t ht => hs t (.tail _ ht)) pre more hg
  | @simple t mid semi d texts cs ds toks h1 h2 h3 h4 _ ih =>
    intro hm hc hs pre more hg
    have sub : ∀ u ∈ t :: mid, u ∈ t :: (mid ++ semi :: toks) := fun u hu => by simp only [List.mem_cons, List.mem_append] at hu ⊢; tauto
    have subr : ∀ u ∈ toks, u ∈ t :: (mid ++ semi :: toks) := fun u hu => by simp only [List.mem_cons, List.mem_append]; tauto
    obtain ⟨args, f1, f2, f3⟩ := heads_all h1 (hm d (within_cons.mpr (.inl rfl))) (fun u hu => hc u (sub u hu)) (fun u hu => hs u (sub u hu))
    have e : t :: (mid ++ semi :: toks) ++ more = t :: (mid ++ semi :: (toks ++ more)) := by simp
    rw [e, f1, mark_keep h3 (by decide), List.map_cons (f := tokMeaning), mark_meaning h3 (by simp)] at hg ⊢
    obtain ⟨f4, f5⟩ := f3 fun hif => hg pre args c!";" _ (by rw [hif])
    obtain ⟨i1, i2⟩ := ih (fun d hd => hm d (within_cons.mpr (.inr (.inr (within_append.mpr (.inr hd)))))) (fun t ht => hc t (subr t ht)) (fun t ht => hs t (subr t ht))
      (pre ++ (d.directive, false) :: (args.map (·, false) ++ [(c!";", true)])) more (by simpa using hg)
    refine ⟨by rw [i1, ngxTree, ngxTree_append, ngxTree_trailing h4, ngxDir_stmt h1.noComment, f4, h2]; simp [ngxBody], fun d' hd => ?_⟩
    rcases within_cons.mp hd with rfl | ⟨b, e, -⟩ | hd
    · exact f5
    · rw [h2] at e; cases e
    · rcases within_append.mp hd with hd | hd
      · exact trailing_fine h4 f2 d' hd
      · exact i2 d' hd
  | @block t mid opening inner closing d b texts cs ds toks h1 h2 h3 _ h5 h6 _ ihb ih =>
    intro hm hc hs pre more hg
    have sub : ∀ u ∈ t :: mid, u ∈ t :: (mid ++ opening :: (inner ++ closing :: toks)) := fun u hu => by simp only [List.mem_cons, List.mem_append] at hu ⊢; tauto
    have subi : ∀ u ∈ inner, u ∈ t :: (mid ++ opening :: (inner ++ closing :: toks)) := fun u hu => by simp only [List.mem_cons, List.mem_append]; tauto
    have subr : ∀ u ∈ toks, u ∈ t :: (mid ++ opening :: (inner ++ closing :: toks)) := fun u hu => by simp only [List.mem_cons, List.mem_append]; tauto
    obtain ⟨args, f1, f2, f3⟩ := heads_all h1 (hm d (within_cons.mpr (.inl rfl))) (fun u hu => hc u (sub u hu)) (fun u hu => hs u (sub u hu))
    have e : t :: (mid ++ opening :: (inner ++ closing :: toks)) ++ more = t :: (mid ++ opening :: (inner ++ (closing :: (toks ++ more)))) := by simp
    rw [e, f1, mark_keep h3 (by decide), List.map_cons (f := tokMeaning), mark_meaning h3 (by simp)] at hg ⊢
    obtain ⟨f4, f5⟩ := f3 fun hif => hg pre args c!"{" _ (by rw [hif])
    obtain ⟨j1, j2⟩ := ihb (fun d' hd => hm d' (within_cons.mpr (.inr (.inl ⟨b, h2, hd⟩)))) (fun t ht => hc t (subi t ht)) (fun t ht => hs t (subi t ht))
      (pre ++ (d.directive, false) :: (args.map (·, false) ++ [(c!"{", true)])) (closing :: (toks ++ more)) (by simpa using hg)
    rw [j1, mark_keep h5 (by decide), List.map_cons (f := tokMeaning), mark_meaning h5 (by simp)] at hg ⊢
    obtain ⟨i1, i2⟩ := ih (fun d hd => hm d (within_cons.mpr (.inr (.inr (within_append.mpr (.inr hd)))))) (fun t ht => hc t (subr t ht)) (fun t ht => hs t (subr t ht))
      (pre ++ (d.directive, false) :: (args.map (·, false) ++ (c!"{", true) :: (ngxTree b ++ [(c!"}", true)]))) more (by simpa using hg)
    refine ⟨by rw [i1, ngxTree, ngxTree_append, ngxTree_trailing h6, ngxDir_stmt h1.noComment, f4, h2]; simp [ngxBody], fun d' hd => ?_⟩
    rcases within_cons.mp hd with rfl | ⟨b', e, hd⟩ | hd
    · exact f5
    · rw [h2] at e; cases e
      exact j2 d' hd
    · rcases within_append.mp hd with hd | hd
      · exact trailing_fine h6 f2 d' hd
      · exact i2 d' hd

/-! ## The theorem -/

/-- A parameter in a file nginx reads, as C99 and C100 need it: without quotes it is bare; with quotes backslashes are only such that the lexer and nginx give it the same value;
the value has no carriage returns or backslashes and only characters that can be printed, and tabs and line ends. -/
def NgxParam (isPrint : Char → Bool) (w : Str) : Option Char → Prop
  | none => '\r' ∉ w ∧ Bare w ∧ NgxString isPrint w
  | some q => '\r' ∉ w ∧ bareQuotes q w = ngxValue w ∧ NgxString isPrint (ngxValue w)

theorem bare_not_special {w : Str} (h : Bare w) : w ≠ c!"{" ∧ w ≠ c!"}" ∧ w ≠ c!";" := by
  refine ⟨?_, ?_, ?_⟩ <;> rintro rfl <;> exact absurd h (by decide +kernel)

/-- Value and mark of a token, as nginx understands them. -/
def shownMeaning (p : Str × Bool) : Str × Bool := (p.1, !p.2 && (p.1 == c!"{" || p.1 == c!";" || p.1 == c!"}"))

theorem tokMeaning_shown (t : Tok) : tokMeaning t = shownMeaning (t.value, t.quoted) := by
  obtain ⟨v, l, q, e⟩ := t
  cases q with
  | true => simp [tokMeaning, shownMeaning, Tok.isTerm]
  | false => by_cases h1 : v = c!"{" <;> by_cases h2 : v = c!";" <;> by_cases h3 : v = c!"}" <;> simp [tokMeaning, shownMeaning, Tok.isTerm, bne, h1, h2, h3]

theorem shown_meaning {isPrint : Char → Bool} {t : NgxTok} (hp : ∀ w q, t = .word w q → NgxParam isPrint w q) (hs : ∀ c, t = .special c → c = '}' ∨ c = ';' ∨ c = '{') :
    shownMeaning t.shown = t.meaning := by
  match t with
  | .special c => rcases hs c rfl with rfl | rfl | rfl <;> rfl
  | .word w none =>
    obtain ⟨-, h1, -⟩ := hp w none rfl
    obtain ⟨h2, h3, h4⟩ := bare_not_special h1
    simp [NgxTok.shown, NgxTok.meaning, shownMeaning, ngxValue_id w h1.1, h2, h3, h4]
  | .word w (some q) =>
    obtain ⟨-, h1, -⟩ := hp w (some q) rfl
    simp [NgxTok.shown, NgxTok.meaning, shownMeaning, h1]

/-- What is shown as one of the special characters is one. -/
theorem shown_special {isPrint : Char → Bool} {t : NgxTok} {v : Str} (hp : ∀ w q, t = .word w q → NgxParam isPrint w q) (h : t.shown = (v, false)) (hv : v = c!"{" ∨ v = c!"}" ∨ v = c!";") :
    ∃ c, t = .special c ∧ v = [c] := by
  match t, h with
  | .special c, h => exact ⟨c, rfl, (Prod.mk.inj h).1.symm⟩
  | .word w none, h =>
    obtain ⟨-, h1, -⟩ := hp w none rfl
    obtain ⟨h2, h3, h4⟩ := bare_not_special h1
    have e : w = v := (Prod.mk.inj h).1
    rw [← e] at hv
    rcases hv with hv | hv | hv
    · exact absurd hv h2
    · exact absurd hv h3
    · exact absurd hv h4
  | .word w (some q), h => cases (Prod.mk.inj h).2

theorem comments_dropped {cs : List Tok} (h : ∀ c ∈ cs, ∃ text, CommentTok c text) : cs.filter (fun t => !commentTok t) = [] := by
  rw [List.filter_eq_nil_iff]
  intro c hc
  simp [commentTok_iff.mpr (h c hc)]

/-- A file that nginx accepts starts with a word, and its statements are ended. -/
theorem ngx_shape {isPrint : Char → Bool} {s : Str} {toks : List NgxTok} (h : ngxRead s = some toks) (hp : ∀ w q, .word w q ∈ toks → NgxParam isPrint w q)
    {lexed : List Tok} (e : shownToks lexed = toks.map NgxTok.shown) : StartsWithWord lexed ∧ StatementsEnd lexed := by
  have ho : NgxOrder false 0 toks := ngx_order s (st := {}) (fun x => by cases x) h
  constructor
  · intro cs t rest el hcs hm
    obtain ⟨v, hv, hmv⟩ : ∃ v, (v = c!"{" ∨ v = c!"}" ∨ v = c!";") ∧ Mark t v := by
      rcases hm with hm | hm | hm
      · exact ⟨_, by simp, hm⟩
      · exact ⟨_, by simp, hm⟩
      · exact ⟨_, by simp, hm⟩
    rw [el, shownToks, List.filter_append, comments_dropped hcs, List.nil_append, mark_keep hmv (by rcases hv with rfl | rfl | rfl <;> decide), List.map_cons] at e
    cases toks with
    | nil => cases e
    | cons n ns =>
      have e1 := (List.cons.inj e).1
      rw [hmv.1, hmv.2] at e1
      obtain ⟨c, rfl, e2⟩ := shown_special (fun w q x => hp w q (x ▸ .head _)) e1.symm hv
      rcases ho.1 with h1 | h1
      · exact h1.2.2 rfl
      · cases h1.2
  · intro a t cs u b el hcs hm
    by_cases hc : ∃ text, CommentTok t text
    · exact .inr (.inr (.inr hc))
    have ht : commentTok t = false := by
      cases hx : commentTok t with
      | false => rfl
      | true => exact absurd (commentTok_iff.mp hx) hc
    rw [el, shownToks, List.filter_append, List.filter_cons_of_pos (by simp [ht]), List.filter_append, comments_dropped hcs, List.nil_append, mark_keep hm (by decide),
      List.map_append, List.map_cons, List.map_cons] at e
    obtain ⟨pre, post, rfl, -, e2⟩ := List.map_eq_append_iff.mp e.symm
    obtain ⟨T, r1, rfl, e3, e4⟩ := List.map_eq_cons_iff.mp e2
    obtain ⟨W, r2, rfl, e5, -⟩ := List.map_eq_cons_iff.mp e4
    rw [hm.1, hm.2] at e5
    obtain ⟨c, rfl, e6⟩ := shown_special (fun w q x => hp w q (by rw [x]; simp)) e5 (by simp)
    obtain rfl : '}' = c := (List.cons.inj e6).1
    match T, e3 with
    | .word w q, _ => exact absurd ho NgxOrder.before
    | .special c, e3 =>
      obtain ⟨e7, e8⟩ := Prod.mk.inj e3
      rcases ho.special (c := c) (by simp) with rfl | rfl | rfl
      · exact .inr (.inl ⟨e8.symm, e7.symm⟩)
      · exact .inr (.inr (.inl ⟨e8.symm, e7.symm⟩))
      · exact .inl ⟨e8.symm, e7.symm⟩

/-- C101.  A payload without errors, nothing being ignored: every config has a file contents it was read from, and if nginx reads that, with parameters as in `NgxParam` and every `if`
written as in `IfForm`, and no parameter of a map-like block is an `if`, then nginx accepts the text that `Build` writes for the config, and reads the same parameters, statements and blocks. -/
theorem C101_format {env : Env} {fuel : Nat} {filename : Str} {o : ParseOptions} {p : Payload} (h : Parse env fuel filename o = .ok p)
    (hlex : o.lexers = []) (hi : o.ignoreDirectives = []) (hcomb : o.combineConfigs = false) (hs : p.status = c!"ok") {n : Nat} {c : Config} (hc : p.config[n]? = some c) :
    ∃ data, ParsesFile env o filename n c.file data ∧ ∀ (isPrint : Char → Bool) (toks : List NgxTok), ngxRead data.runes = some toks → LineEnds data.runes →
      (∀ w q, .word w q ∈ toks → NgxParam isPrint w q) → IfGood isPrint (toks.map NgxTok.meaning) → (∀ d, Within d c.parsed → d.directive = c!"if" → d.isMapBlockParameter = false) →
      ∀ (bo : BuildOptions) (text : Str), bo.builders = [] → bo.extBuilders = none → buildText isPrint c bo = some text →
        ∃ toks', ngxRead text = some toks' ∧ toks'.map NgxTok.meaning = toks.map NgxTok.meaning := by
  obtain ⟨data, h1, h2⟩ := C28_partial h hlex hi hcomb hs hc
  refine ⟨data, h1, fun isPrint toks hr hl hp hif hmap bo text hb he ht => ?_⟩
  have hbare : ∀ w, .word w none ∈ toks → Bare w := fun w hw => (hp w none hw).2.1
  have hret : ∀ w q, .word w q ∈ toks → '\r' ∉ w := fun w q hw => by
    cases q with
    | none => exact (hp w none hw).1
    | some q => exact (hp w (some q) hw).1
  have same := (C99_same hr hl hret hbare).1
  obtain ⟨s1, s2⟩ := ngx_shape hr hp same
  have src := h2 s1 s2
  have ho : NgxOrder false 0 toks := ngx_order data.runes (st := {}) (fun x => by cases x) hr
  have hm : ((lex data.runes).filter fun t => !commentTok t).map tokMeaning = toks.map NgxTok.meaning := by
    have e2 := congrArg (List.map shownMeaning) same
    rw [shownToks, List.map_map, List.map_map] at e2
    refine Eq.trans (List.map_congr_left fun t _ => tokMeaning_shown t) (e2.trans (List.map_congr_left fun t ht => ?_))
    exact shown_meaning (fun w q x => hp w q (x ▸ ht)) fun c x => ho.special (x ▸ ht)
  obtain ⟨e, hfine⟩ := source_ngx (isPrint := isPrint) src hmap (by
      obtain ⟨items, d, -, hw, -, el⟩ := C03_every_text_is_items data.runes
      rw [el]
      exact comment_one_line hw) (by
      intro t ht hx
      have hcom : commentTok t = false := by
        cases hy : commentTok t with
        | false => rfl
        | true => obtain ⟨x, hy⟩ := commentTok_iff.mp hy; exact absurd hy (hx.1 x)
      have hmem : (t.value, t.quoted) ∈ shownToks (lex data.runes) := List.mem_map_of_mem (f := fun t : Tok => (t.value, t.quoted)) (List.mem_filter.mpr ⟨ht, by simp [hcom]⟩)
      rw [same] at hmem
      obtain ⟨T, hT, eT⟩ := List.mem_map.mp hmem
      match T, hT, eT with
      | .special d, hT, eT =>
        obtain ⟨e1, e2⟩ := Prod.mk.inj eT
        rcases ho.special hT with rfl | rfl | rfl
        · exact absurd ⟨e2.symm, e1.symm⟩ hx.2.2.1
        · exact absurd ⟨e2.symm, e1.symm⟩ hx.2.2.2
        · exact absurd ⟨e2.symm, e1.symm⟩ hx.2.1
      | .word w none, hT, eT => rw [show t.value = w from (Prod.mk.inj eT).1.symm]; exact (hp w none hT).2.2
      | .word w (some q), hT, eT => rw [show t.value = bareQuotes q w from (Prod.mk.inj eT).1.symm, (hp w _ hT).2.1]; exact (hp w (some q) hT).2.2)
    [] [] (by rw [List.append_nil, List.nil_append, hm]; exact hif)
  rw [List.append_nil, List.filter_nil, List.map_nil, List.append_nil, hm] at e
  obtain ⟨toks', r1, r2⟩ := C100_build hb he hfine ht
  exact ⟨toks', r1, r2.trans e.symm⟩

theorem params_unique {e e' : Str} {post post' : List (Str × Bool)} : ∀ {args args' : List Str}, args.map (·, false) ++ (e, true) :: post = args'.map (·, false) ++ (e', true) :: post' → args = args'
  | [], [], _ => rfl
  | [], _ :: _, h => by simp at h
  | _ :: _, [], h => by simp at h
  | a :: as, b :: bs, h => by
    obtain ⟨h1, h2⟩ := List.cons.inj h
    rw [(Prod.mk.inj h1).1, params_unique h2]

theorem IfGood.nil {isPrint : Char → Bool} : IfGood isPrint [] := fun pre _ _ _ h => by cases pre <;> cases h

theorem IfGood.other {isPrint : Char → Bool} {x : Str × Bool} {l : List (Str × Bool)} (hx : x ≠ (c!"if", false)) (h : IfGood isPrint l) : IfGood isPrint (x :: l) := by
  intro pre args e post hl
  cases pre with
  | nil => exact absurd (List.cons.inj hl).1 hx
  | cons y pre => exact h pre args e post (List.cons.inj hl).2

theorem IfGood.stmt {isPrint : Char → Bool} {args : List Str} {e : Str} {post : List (Str × Bool)} (hf : IfForm isPrint args) (h : IfGood isPrint (args.map (·, false) ++ (e, true) :: post)) :
    IfGood isPrint ((c!"if", false) :: (args.map (·, false) ++ (e, true) :: post)) := by
  intro pre args' e' post' hl
  cases pre with
  | nil => exact params_unique (List.cons.inj hl).2 ▸ hf
  | cons y pre => exact h pre args' e' post' (List.cons.inj hl).2

/-- The file of the example: comments, quotes of both kinds, a variable, blocks and an `if`. -/
def exFormat : Str := c!"http{# x\n  root  \"/r;\\\" \" ${a}b'c # y\n 'd'; z{if ($a = b){}}}"

/-- What nginx reads. -/
def exFormatToks : List NgxTok := [.word c!"http" none, .special '{', .word c!"root" none, .word c!"/r;\\\" " (some '"'), .word c!"${a}b'c" none, .word c!"d" (some '\''), .special ';',
  .word c!"z" none, .special '{', .word c!"if" none, .word c!"($a" none, .word c!"=" none, .word c!"b)" none, .special '{', .special '}', .special '}', .special '}']

/-- The parsed file. -/
def exFormatTree : List Directive := [blk c!"http" 1 [] [⟨c!"#", 1, [], [], none, none, some c!" x", false⟩, dir c!"root" 2 [c!"/r;\" ", c!"${a}b'c", c!"d"], ⟨c!"#", 2, [], [], none, none, some c!" y", false⟩,
  blk c!"z" 3 [] [blk c!"if" 3 [c!"$a", c!"=", c!"b"] []]]]

example : ∃ data, ParsesFile (exEnv [(c!"f", exFormat)]) { exOpts with parseComments := true } c!"f" 0 c!"f" data ∧ (data.runes = exFormat →
    ∀ text, buildText (fun _ => true) ⟨c!"f", c!"ok", [], exFormatTree⟩ { indent := 2 } = some text → ∃ toks', ngxRead text = some toks' ∧ toks'.map NgxTok.meaning = exFormatToks.map NgxTok.meaning) := by
  obtain ⟨data, h1, h2⟩ := C101_format (env := exEnv [(c!"f", exFormat)]) (fuel := 2) (filename := c!"f") (o := { exOpts with parseComments := true }) (p := okPayload [(c!"f", exFormatTree)])
    (by decide +kernel) rfl rfl rfl rfl (n := 0) (c := ⟨c!"f", c!"ok", [], exFormatTree⟩) rfl
  have hne : ∀ x : Str × Bool, x.1 ≠ c!"if" → x ≠ (c!"if", false) := fun x h e => h (by rw [e])
  refine ⟨data, h1, fun e text ht => h2 (fun _ => true) exFormatToks (by rw [e]; decide +kernel) ?_ ?_ ?_ ?_ { indent := 2 } text rfl rfl ht⟩
  · rw [e]
    intro a b hab
    exact absurd (show '\r' ∈ exFormat by rw [hab]; simp) (by decide +kernel)
  · intro w q hw
    simp only [exFormatToks, List.mem_cons, NgxTok.word.injEq, reduceCtorEq, List.not_mem_nil, or_false, false_or] at hw
    rcases hw with ⟨rfl, rfl⟩ | ⟨rfl, rfl⟩ | ⟨rfl, rfl⟩ | ⟨rfl, rfl⟩ | ⟨rfl, rfl⟩ | ⟨rfl, rfl⟩ | ⟨rfl, rfl⟩ | ⟨rfl, rfl⟩ | ⟨rfl, rfl⟩ | ⟨rfl, rfl⟩ <;> unfold NgxParam NgxString NgxChar <;> decide +kernel
  · have rest : ∀ l : List (Str × Bool), (∀ x ∈ l, x.1 ≠ c!"if") → IfGood (fun _ => true) l := by
      intro l
      induction l with
      | nil => intro _; exact .nil
      | cons x l ih => intro h; exact .other (hne x (h x (.head _))) (ih fun y hy => h y (.tail _ hy))
    have pre : ∀ l m : List (Str × Bool), (∀ x ∈ l, x.1 ≠ c!"if") → IfGood (fun _ => true) m → IfGood (fun _ => true) (l ++ m) := by
      intro l m
      induction l with
      | nil => intro _ h; exact h
      | cons x l ih => intro h hm; exact .other (hne x (h x (.head _))) (ih (fun y hy => h y (.tail _ hy)) hm)
    refine pre [(c!"http", false), (c!"{", true), (c!"root", false), (c!"/r;\" ", false), (c!"${a}b'c", false), (c!"d", false), (c!";", true), (c!"z", false), (c!"{", true)] _ (by decide +kernel)
      (.stmt (args := [c!"($a", c!"=", c!"b)"]) (e := c!"{") ⟨[c!"$a", c!"=", c!"b"], by simp, rfl, ?_⟩ (rest _ (by decide +kernel)))
    unfold NgxString NgxChar
    decide +kernel
  · have all : ∀ ds : List Directive, ∀ d, Within d ds → (∀ d ∈ ds, d.isMapBlockParameter = false ∧ ∀ b, d.block = some b → ∀ d, Within d b → d.isMapBlockParameter = false) → d.isMapBlockParameter = false := by
      intro ds d hd h
      cases hd with
      | here hm => exact (h d hm).1
      | deep hm hb hw => exact (h _ hm).2 _ hb d hw
    intro d hd _
    refine all _ d hd fun d1 m1 => ?_
    obtain rfl := List.mem_singleton.mp m1
    refine ⟨rfl, fun b hb d hd => all _ d hd fun d2 m2 => ?_⟩
    cases hb
    simp only [List.mem_cons, List.not_mem_nil, or_false] at m2
    rcases m2 with rfl | rfl | rfl | rfl
    · exact ⟨rfl, fun b hb => by cases hb⟩
    · exact ⟨rfl, fun b hb => by cases hb⟩
    · exact ⟨rfl, fun b hb => by cases hb⟩
    · refine ⟨rfl, fun b hb d hd => all _ d hd fun d3 m3 => ?_⟩
      cases hb
      obtain rfl := List.mem_singleton.mp m3
      refine ⟨rfl, fun b hb d hd => ?_⟩
      cases hb
      exact absurd hd within_nil

/-- C101 is false of the code for an `if` without parentheses: they are added. -/
theorem C101_false_bare : Parse (exEnv [(c!"f", c!"z{if a{}}")]) 2 c!"f" exOpts = .ok (okPayload [(c!"f", [blk c!"z" 1 [] [blk c!"if" 1 [c!"a"] []]])]) ∧
    buildText (fun _ => true) ⟨c!"f", c!"ok", [], [blk c!"z" 1 [] [blk c!"if" 1 [c!"a"] []]]⟩ { indent := 1 } = some c!"z {\n if (a) {\n }\n}" ∧
    ngxRead c!"z{if a{}}" = some [.word c!"z" none, .special '{', .word c!"if" none, .word c!"a" none, .special '{', .special '}', .special '}'] ∧
    ngxRead c!"z {\n if (a) {\n }\n}" = some [.word c!"z" none, .special '{', .word c!"if" none, .word c!"(a)" none, .special '{', .special '}', .special '}'] := by
  refine ⟨?_, ?_, ?_, ?_⟩ <;> decide +kernel

/-- C101 is false of the code for a parameter `if` of a map-like block: its value gets parentheses. -/
theorem C101_false_map : Parse (exEnv [(c!"f", c!"z{map{if a;}}")]) 2 c!"f" exOpts = .ok (okPayload [(c!"f", [blk c!"z" 1 [] [blk c!"map" 1 [] [param c!"if" 1 [c!"a"]]]])]) ∧
    buildText (fun _ => true) ⟨c!"f", c!"ok", [], [blk c!"z" 1 [] [blk c!"map" 1 [] [param c!"if" 1 [c!"a"]]]]⟩ { indent := 1 } = some c!"z {\n map {\n  if (a);\n }\n}" := by
  refine ⟨?_, ?_⟩ <;> decide +kernel

/-- C101 is false of the code for `if`: blanks next to the parentheses are dropped, and the parameters nginx reads are others. -/
theorem C101_false_if : ∃ toks toks', ngxRead c!"z{if ( $a ) {}}" = some toks ∧
    Parse (exEnv [(c!"f", c!"z{if ( $a ) {}}")]) 2 c!"f" exOpts = .ok (okPayload [(c!"f", [blk c!"z" 1 [] [blk c!"if" 1 [c!"$a"] []]])]) ∧
    buildText (fun _ => true) ⟨c!"f", c!"ok", [], [blk c!"z" 1 [] [blk c!"if" 1 [c!"$a"] []]]⟩ { indent := 1 } = some c!"z {\n if ($a) {\n }\n}" ∧
    ngxRead c!"z {\n if ($a) {\n }\n}" = some toks' ∧ toks.map NgxTok.meaning ≠ toks'.map NgxTok.meaning :=
  ⟨[.word c!"z" none, .special '{', .word c!"if" none, .word c!"(" none, .word c!"$a" none, .word c!")" none, .special '{', .special '}', .special '}'],
    [.word c!"z" none, .special '{', .word c!"if" none, .word c!"($a)" none, .special '{', .special '}', .special '}'],
    by decide +kernel, by decide +kernel, by decide +kernel, by decide +kernel, by decide +kernel⟩

/-- C101 is false of the code for a quoted number sign: the quotes are lost, and nginx rejects what is built. -/
theorem C101_false_sharp : ∃ toks, ngxRead c!"a '#b';" = some toks ∧ Parse (exEnv [(c!"f", c!"a '#b';")]) 2 c!"f" exOpts = .ok (okPayload [(c!"f", [dir c!"a" 1 [c!"#b"]])]) ∧
    buildText (fun _ => true) ⟨c!"f", c!"ok", [], [dir c!"a" 1 [c!"#b"]]⟩ {} = some c!"a #b;" ∧ ngxRead c!"a #b;" = none :=
  ⟨[.word c!"a" none, .word c!"#b" (some '\''), .special ';'], by decide +kernel, by decide +kernel, by decide +kernel, by decide +kernel⟩


end Verif
