import Verif.Props.BuildLex
import Verif.Props.Source
import Verif.Props.Tree
import Verif.Proofs.IncludeGraph
import Verif.Spec.Rebuild
/-!
# Parsing the tokens of built text
-/
namespace Verif
open Spec

/-! ## Parentheses -/

theorem trimLeft_of_LTrim {s r : Str} (h : LTrim s r) : trimLeftSpace s = r := by
  obtain ⟨w, rfl, h1, h2⟩ := h
  unfold trimLeftSpace
  induction w with
  | nil =>
    cases r with
    | nil => rfl
    | cons x xs => simp [h2 x xs rfl]
  | cons x w ih =>
    rw [List.cons_append, List.dropWhile_cons, if_pos (h1 x (by simp))]
    exact ih (fun y hy => h1 y (by simp [hy]))

theorem trimRight_of_RTrim {s r : Str} (h : RTrim s r) : trimRightSpace s = r := by
  obtain ⟨w, rfl, h1, h2⟩ := h
  have : trimLeftSpace (r ++ w).reverse = r.reverse := by
    refine trimLeft_of_LTrim ⟨w.reverse, by simp, fun x hx => h1 x (by simpa using hx), ?_⟩
    intro x xs e
    refine h2 xs.reverse x ?_
    have := congrArg List.reverse e
    simpa using this
  unfold trimRightSpace
  unfold trimLeftSpace at this
  rw [this, List.reverse_reverse]

/-- `prepareIfArgs` gives the arguments without parentheses. -/
theorem prepareIfArgs_of {d : Directive} {args : List Str} (h : IfArgs d.args args) : prepareIfArgs d = some { d with args := args } := by
  generalize hr : d.args = raw at h
  cases h with
  | plain hp =>
    rw [prepareIfArgs_plain d (by rw [hr]; exact hp)]
    obtain ⟨dd, dl, dargs, df, dincl, dblock, dcomm, dmap⟩ := d
    simp only at hr
    rw [hr]
  | one h1 h2 h3 =>
    rw [prepareIfArgs_one d _ hr, trimLeft_of_LTrim h1, trimRight_of_RTrim h2, if_neg h3]
  | more h1 h2 =>
    rw [prepareIfArgs_more d _ _ _ hr, trimLeft_of_LTrim h1, trimRight_of_RTrim h2]

/-! ## The values of a head -/

theorem itemOf_quoted {isPrint : Char → Bool} {s : Str} (h : ∃ v, IsToken (Enquote isPrint s) v) (hn : needsQuote s = true) :
    ¬ IsWordItem (itemOf isPrint s) := by
  rintro ⟨us, hus⟩
  obtain ⟨ht, v, hv⟩ := itemOf_spec h
  obtain ⟨q, r, e, hq⟩ := Enquote_start isPrint hn
  rw [hus] at ht hv
  rw [e] at ht
  cases hv with
  | word hw hs hrun =>
    obtain ⟨u, us', rfl, hu⟩ := hs
    cases u with
    | esc c =>
      simp only [Item.text, textOf_cons, U.text, List.cons_append, List.cons.injEq] at ht
      obtain ⟨rfl, -⟩ := ht
      rcases hq with hq | hq <;> cases hq
    | plain c =>
      simp only [Item.text, textOf_cons, U.text, List.cons_append, List.cons.injEq] at ht
      obtain ⟨rfl, -⟩ := ht
      obtain ⟨-, -, h3, h4, -⟩ := hu
      rcases hq with hq | hq
      · exact h3 hq
      · exact h4 hq

theorem parenTail_closing {it : Str → Item} {quoted : Str → Bool} (as : List Str) : ∀ (i : Item) (v : Str) (q : Bool), OneTok i v →
    (q = false ↔ IsWordItem i) → (∀ a ∈ as, OneTok (it a) a ∧ (quoted a = false ↔ IsWordItem (it a))) →
    (itemVals (parenTail it i as)).map Prod.fst = closing quoted q v as := by
  induction as with
  | nil =>
    intro i v q hi hq _
    obtain ⟨q', hv, -⟩ := hi.vals
    cases i with
    | word us =>
      obtain rfl := hq.mpr ⟨us, rfl⟩
      obtain ⟨q, hv, -⟩ := hi.closed.vals
      simp [parenTail, closeParen, hv, closing]
    | quoted c us cl =>
      have : q = true := by
        cases q with
        | true => rfl
        | false => obtain ⟨x, hx⟩ := hq.mp rfl; cases hx
      subst this
      rw [parenTail, closeParen_quoted, itemVals_cons, hv]
      simp [itemVals, textOf, U.text, closing]
    | space c => cases hi
    | special c => cases hi
    | comment us e => cases hi
  | cons b bs ih =>
    intro i v q hi hq h
    obtain ⟨q', hv, -⟩ := hi.vals
    rw [parenTail, itemVals_cons, hv, itemVals_space, List.map_append, ih (it b) b (quoted b) (h b (by simp)).1 (h b (by simp)).2 (fun a ha => h a (by simp [ha]))]
    rfl

/-- Names and arguments that are read back as they are. -/
structure HeadReadable (isPrint : Char → Bool) (name : Str) (args : List Str) : Prop where
  token : ∀ s ∈ name :: args, IsToken (Enquote isPrint s) s
  ifSome : name = c!"if" → args ≠ []
  ifFirst : name = c!"if" → ∀ a as, args = a :: as → needsQuote a = false
  ifLast : name = c!"if" → ∀ as l, args = as ++ [l] → needsQuote l = false → ∀ xs x, l = xs ++ [x] → isSpaceRune x = false

theorem HeadReadable.word_iff {isPrint : Char → Bool} {name : Str} {args : List Str} (h : HeadReadable isPrint name args) {s : Str} (hs : s ∈ name :: args) :
    needsQuote s = false ↔ IsWordItem (itemOf isPrint s) := by
  constructor
  · exact itemOf_word ⟨s, h.token s hs⟩
  · intro hw
    cases hn : needsQuote s with
    | false => rfl
    | true => exact absurd hw (itemOf_quoted ⟨s, h.token s hs⟩ hn)

/-- The values of the head of a directive are its name and its arguments, those of `if` with parentheses. -/
theorem HeadReadable.vals {isPrint : Char → Bool} {d : Directive} (h : HeadReadable isPrint d.directive d.args) :
    ∃ q vs, itemVals (heads isPrint d.directive d.args) = (d.directive, q) :: vs ∧ vs.map Prod.fst = rawArgs needsQuote d ∧
      (d.directive = c!"if" → IfArgs (rawArgs needsQuote d) d.args) := by
  have hit : ∀ s ∈ d.directive :: d.args, OneTok (itemOf isPrint s) s := fun s hs => itemOf_value (h.token s hs)
  obtain ⟨q, hv, -⟩ := (hit d.directive (by simp)).vals
  refine ⟨q, ?_⟩
  unfold heads headItems rawArgs
  by_cases hn : d.directive = c!"if"
  · have hn' := (Enquote_if isPrint d.directive).mpr hn
    rw [if_pos hn', if_pos hn, itemVals_cons, hv, itemVals_space]
    have hraw : (itemVals (ifItems (itemOf isPrint) d.args)).map Prod.fst = ifTokens needsQuote d.args := by
      cases ha : d.args with
      | nil => exact absurd ha (h.ifSome hn)
      | cons a as =>
        have hw := (h.word_iff (s := a) (by simp [ha])).mp (h.ifFirst hn a as ha)
        obtain ⟨us, hus⟩ := hw
        have h1 := hit a (by simp [ha])
        rw [hus] at h1
        rw [ifItems, hus, ifTokens]
        exact parenTail_closing as _ _ false h1.opened ⟨fun _ => ⟨_, rfl⟩, fun _ => rfl⟩
          (fun b hb => ⟨hit b (by simp [ha, hb]), h.word_iff (by simp [ha, hb])⟩)
    refine ⟨_, rfl, hraw, fun _ => ?_⟩
    rw [← hraw]
    refine ifItems_vals (h.ifSome hn) (fun a ha => hit a (by simp [ha])) (fun a as e => (h.word_iff (by simp [e])).mp (h.ifFirst hn a as e)) ?_
    intro as l e hw
    exact h.ifLast hn as l e ((h.word_iff (by simp [e])).mpr hw)
  · rw [if_neg (fun e => hn ((Enquote_if isPrint _).mp e)), if_neg hn, itemVals_cons, hv]
    exact ⟨_, rfl, argItems_vals (fun a ha => hit a (by simp [ha])), fun e => absurd e hn⟩

/-! ## One statement -/

theorem readArgs_fwd {pc : Bool} (mid : List Tok) (h : ∀ t ∈ mid, t.isTerm = false ∧ t.isCommentTok = false) (term : Tok) (ht : term.isTerm = true)
    (rest : List Tok) (args comments : List Str) :
    readArgs pc args comments (mid ++ term :: rest) = some (args ++ mid.map Tok.value, comments, term, rest) := by
  induction mid generalizing args with
  | nil => simp [readArgs, ht]
  | cons t mid ih =>
    obtain ⟨h1, h2⟩ := h t (by simp)
    rw [List.cons_append, readArgs, if_neg (by simp [h1]), if_pos (by simp [h2]), ih (fun x hx => h x (by simp [hx]))]
    simp

theorem vals_toks {hs : List Tok} {v : Str} {q : Bool} {vs : List (Str × Bool)} (h : Vals hs ((v, q) :: vs)) (ho : ∀ x ∈ (v, q) :: vs, ValOk x) :
    ∃ t mid, hs = t :: mid ∧ t.value = v ∧ mid.map Tok.value = vs.map Prod.fst ∧ t.error = none ∧
      ∀ x ∈ t :: mid, x.isTerm = false ∧ x.isCommentTok = false := by
  have hall : ∀ x ∈ hs, x.isTerm = false ∧ x.isCommentTok = false := by
    intro x hx
    have hm := List.mem_map_of_mem (f := fun t : Tok => (t.value, t.quoted, t.error)) hx
    unfold Vals at h
    rw [h] at hm
    obtain ⟨w, hw, e⟩ := List.mem_map.mp hm
    obtain ⟨o1, o2⟩ := ho w hw
    obtain ⟨e1, e2⟩ := Prod.mk.inj e
    obtain ⟨e2, -⟩ := Prod.mk.inj e2
    rw [e1, e2] at o1 o2
    rw [← wordTok_iff]
    refine ⟨fun text ht => o1 ⟨ht.1, text, ht.2⟩, fun ht => (o2 ht.1).2.1 ht.2, fun ht => (o2 ht.1).2.2 ht.2, fun ht => (o2 ht.1).1 ht.2⟩
  cases hs with
  | nil => simp [Vals] at h
  | cons t mid =>
    simp only [Vals, List.map_cons, List.cons.injEq, Prod.mk.injEq] at h
    obtain ⟨⟨h1, h2, h3⟩, h4⟩ := h
    refine ⟨t, mid, rfl, h1, ?_, h3, hall⟩
    have := congrArg (List.map Prod.fst) h4
    simpa [Function.comp_def] using this

theorem mapCtx_eq (c : List Str) (m : Str) : mapCtx c = some m ↔ InMap c m := by
  have hm : ∀ m : Str, (mapBodies.lookup m).isSome = true ↔ m ∈ mapBlocks := by
    intro m
    unfold mapBlocks mapBodies
    simp only [List.lookup_cons]
    constructor
    · intro h
      repeat' (first | (split at h; rename_i hb; rw [beq_iff_eq] at hb; subst hb; decide) | skip)
      simp at h
    · intro h
      fin_cases h <;> decide
  unfold mapCtx InMap
  cases c.getLast? with
  | none => simp
  | some x =>
    simp only [Option.some.injEq]
    by_cases hx : (mapBodies.lookup x).isSome = true
    · rw [if_pos hx]
      constructor
      · rintro h; cases h; exact ⟨rfl, (hm _).mp hx⟩
      · rintro ⟨rfl, -⟩; rfl
    · rw [if_neg hx]
      constructor
      · intro h; cases h
      · rintro ⟨rfl, h⟩; exact absurd ((hm _).mpr h) hx

theorem contains_false {xs : List Str} {x : Str} (h : x ∉ xs) : contains xs x = false := by
  unfold contains
  rw [List.any_eq_false]
  intro y hy e
  rw [beq_iff_eq] at e
  exact h (e ▸ hy)

/-- `analyze` does not look at line and file. -/
theorem analyze_congr {file file' : Str} {s s' : Directive} (h1 : s.directive = s'.directive) (h2 : s.args = s'.args) {term : Str} {c : List Str} {o : ParseOptions}
    (h : analyze file s term c o = none) : analyze file' s' term c o = none := by
  obtain ⟨bit, hb⟩ := lookup_bit c
  rw [analyze_iff _ _ _ _ _ bit hb] at h ⊢
  rw [← h1, ← h2]; exact h

/-! ## Trees -/

/-- A text that is read back as a comment: no line ends, and no single backslash at the end. -/
def CommentText (s : Str) : Prop := ∃ us : List U, textOf us = s ∧ ∀ u ∈ us, u.wf ∧ u.char ≠ '\n'

/-- Trees whose names, arguments and comments are read back as they are. -/
def Readable (isPrint : Char → Bool) (ds : List Directive) : Prop :=
  ∀ d, Within d ds → (IsComment d ∧ d.args = [] ∧ d.block = none ∧ CommentText (d.comment.getD [])) ∨
    (¬ IsComment d ∧ d.comment = none ∧ HeadReadable isPrint d.directive d.args)

/-- Trees whose directives the parser accepts in their places (in the context `ctx`). -/
def Accepted (quoted : Str → Bool) (o : ParseOptions) (ctx : List Str) (ds : List Directive) : Prop :=
  ∀ d c, At d ctx ds c → ¬ IsComment d →
    (∀ m, InMap c m → d.directive ≠ c!"if" ∧ d.block = none ∧ MapArgs m d.directive d.args.length) ∧
    ((∀ m, ¬ InMap c m) → d.directive ∉ o.ignoreDirectives ∧ (o.singleFile = true ∨ d.directive ≠ c!"include") ∧
      analyze d.file ⟨d.directive, d.line, rawArgs quoted d, d.file, none, none, none, false⟩ (termOf d) c o = none)

theorem cunits_textOf (us : List U) (h : ∀ u ∈ us, u.wf) : cunits (textOf us) = (us, []) := by
  induction us with
  | nil => rfl
  | cons u us ih =>
    have ih := ih (fun x hx => h x (by simp [hx]))
    cases u with
    | esc c =>
      rw [textOf_cons]
      show cunits ('\\' :: c :: textOf us) = _
      rw [cunits, if_pos rfl, ih]
    | plain c =>
      have hc := (h (.plain c) (by simp)).1
      rw [textOf_cons]
      show cunits (c :: textOf us) = _
      cases ht : textOf us with
      | nil =>
        rw [ht] at ih
        have : us = [] := by
          have := congrArg Prod.fst ih
          exact this.symm
        subst this
        rw [cunits, if_neg hc]
      | cons x xs =>
        rw [ht] at ih
        rw [cunits, if_neg hc, ih]

theorem CommentText.cunits {s : Str} (h : CommentText s) : textOf (cunits s).1 = s := by
  obtain ⟨us, rfl, hu⟩ := h
  rw [cunits_textOf us (fun u hx => (hu u hx).1)]

theorem CommentText.ok {s : Str} (h : CommentText s) : '\n' ∉ s ∧ '\r' ∉ s := by
  obtain ⟨us, rfl, hu⟩ := h
  induction us with
  | nil => simp [textOf]
  | cons u us ih =>
    obtain ⟨h1, h2⟩ := ih (fun x hx => hu x (by simp [hx]))
    obtain ⟨h3, h4⟩ := hu u (by simp)
    cases u with
    | esc c =>
      rw [textOf_cons]
      have h3 : c ≠ '\r' := h3
      have h4 : c ≠ '\n' := h4
      simp [U.text, h1, h2, h3.symm, h4.symm]
    | plain c =>
      rw [textOf_cons]
      have h3 : c ≠ '\r' := h3.2
      have h4 : c ≠ '\n' := h4
      simp [U.text, h1, h2, h3.symm, h4.symm]

theorem Readable.lexable {isPrint : Char → Bool} {ds : List Directive} (h : Readable isPrint ds) : Lexable isPrint ds := by
  intro d hd
  rcases h d hd with ⟨h1, -, -, h2⟩ | ⟨h1, -, h2⟩
  · exact Or.inl ⟨h1, h2.ok⟩
  · exact Or.inr ⟨h1, fun s hs => ⟨s, h2.token s hs⟩, h2.ifFirst⟩

theorem Readable.tail {isPrint : Char → Bool} {d : Directive} {ds : List Directive} (h : Readable isPrint (d :: ds)) : Readable isPrint ds :=
  fun x hx => h x (Within.mono hx (fun _ hm => List.mem_cons_of_mem _ hm))

theorem Readable.block {isPrint : Char → Bool} {d : Directive} {b ds : List Directive} (h : Readable isPrint (d :: ds)) (hb : d.block = some b) : Readable isPrint b :=
  fun x hx => h x (.deep (List.mem_cons_self ..) hb hx)

theorem at_cons {d e : Directive} {ctx : List Str} {ds : List Directive} {c : List Str} (h : At d ctx ds c) : At d ctx (e :: ds) c := by
  cases h with
  | here h => exact .here (List.mem_cons_of_mem _ h)
  | deep h1 h2 h3 => exact .deep (List.mem_cons_of_mem _ h1) h2 h3

theorem Accepted.tail {q : Str → Bool} {o : ParseOptions} {ctx : List Str} {d : Directive} {ds : List Directive} (h : Accepted q o ctx (d :: ds)) : Accepted q o ctx ds :=
  fun x c hx => h x c (at_cons hx)

theorem Accepted.block {q : Str → Bool} {o : ParseOptions} {ctx : List Str} {d : Directive} {b ds : List Directive} (h : Accepted q o ctx (d :: ds))
    (hb : d.block = some b) : Accepted q o (enter ctx d.directive) b :=
  fun x c hx => h x c (.deep (List.mem_cons_self ..) hb hx)

/-- Nothing but the supply of array identities changes. -/
def Quiet (ps ps' : PS) : Prop := ∃ n, ps' = { ps with nextArr := n }

theorem Quiet.refl (ps : PS) : Quiet ps ps := ⟨ps.nextArr, rfl⟩
theorem Quiet.trans {a b c : PS} (h1 : Quiet a b) (h2 : Quiet b c) : Quiet a c := by
  obtain ⟨n, rfl⟩ := h1
  obtain ⟨m, rfl⟩ := h2
  exact ⟨m, rfl⟩
theorem Quiet.includes {a b : PS} (h : Quiet a b) : b.includes = a.includes := by
  obtain ⟨n, rfl⟩ := h; rfl

theorem enterBlockCtx_quiet (stmt : Directive) (ctx : Ctx) (ps : PS) (h : ps.includes = []) : Quiet ps (enterBlockCtx stmt ctx ps).2 := by
  unfold enterBlockCtx
  split
  · exact ⟨_, rfl⟩
  · split
    · refine ⟨ps.nextArr, ?_⟩
      cases ps
      simp only at h
      subst h
      rfl
    · exact ⟨_, rfl⟩

/-- The values of the tokens of the head of a directive: its name and its arguments, those of `if` with parentheses. -/
def HeadVals (vals : List (Str × Bool)) (d : Directive) : Prop :=
  ∃ q vs, vals = (d.directive, q) :: vs ∧ vs.map Prod.fst = rawArgs needsQuote d ∧ (d.directive = c!"if" → IfArgs (rawArgs needsQuote d) d.args) ∧
    ∀ x ∈ vals, ValOk x

theorem HeadReadable.headVals {isPrint : Char → Bool} {d : Directive} (h : HeadReadable isPrint d.directive d.args)
    (hl : HeadOk (heads isPrint d.directive d.args)) : HeadVals (itemVals (heads isPrint d.directive d.args)) d := by
  obtain ⟨q, vs, e1, e2, e3⟩ := h.vals
  exact ⟨q, vs, e1, e2, e3, fun x hx => ⟨hl.noComment x hx, hl.noMark x hx⟩⟩

/-- A statement that is accepted: what one round of the loop does with it. -/
theorem step_accepted_by {env : Env} {o : ParseOptions} {configDir file : Str} {ctx : Ctx} {ps : PS} {d : Directive} (hc : ¬ IsComment d)
    {vals : List (Str × Bool)} (hr : HeadVals vals d) {ds : List Directive} (ha : Accepted needsQuote o ctx.vals (d :: ds)) {hs : List Tok}
    (hv : Vals hs vals) (line : Int) (rest : List Tok) :
    ∃ t mid s, hs = t :: mid ∧ s.directive = d.directive ∧ s.args = d.args ∧ s.comment = none ∧ s.block = none ∧ s.line = t.line ∧
      (d.block = none → step env o configDir file ctx t (mid ++ ⟨termOf d, line, false, none⟩ :: rest) ps = .next [s] rest ps) ∧
      (d.block ≠ none → step env o configDir file ctx t (mid ++ ⟨termOf d, line, false, none⟩ :: rest) ps = .block s [] rest ps) := by
  obtain ⟨q, vs, e1, e2, e3, e4⟩ := hr
  rw [e1] at hv
  obtain ⟨t, mid, rfl, h1, h2, h3, h4⟩ := vals_toks hv (fun x hx => e4 x (by rw [e1]; exact hx))
  have hterm : (⟨termOf d, line, false, none⟩ : Tok).isTerm = true := by
    unfold termOf; split <;> rfl
  have hnc : t.is c!"}" = false := by
    rw [is_mark_false]
    intro hm
    have := isTerm_mark.mpr (Or.inr (Or.inl hm))
    rw [(h4 t (by simp)).1] at this; cases this
  have R : Reads o t (mid ++ ⟨termOf d, line, false, none⟩ :: rest) (rawArgs needsQuote d) [] ⟨termOf d, line, false, none⟩ rest := by
    refine ⟨h3, hnc, (h4 t (by simp)).2, ?_⟩
    rw [readArgs_fwd mid (fun x hx => h4 x (by simp [hx])) _ hterm, h2, e2]
    rfl
  obtain ⟨a1, a2⟩ := ha d ctx.vals (.here (by simp)) hc
  cases hm : mapCtx ctx.vals with
  | some m =>
    have him := (mapCtx_eq _ _).mp hm
    obtain ⟨b1, b2, b3⟩ := a1 m him
    have hraw : rawArgs needsQuote d = d.args := by unfold rawArgs; rw [if_neg b1]
    have han : analyzeMapBody file (baseStmt o file t (rawArgs needsQuote d)) (termOf d) m = none := by
      rw [C27_decision _ _ _ _ him.2]
      refine ⟨by unfold termOf; rw [if_pos b2], ?_⟩
      show MapArgs m t.value (rawArgs needsQuote d).length
      rw [h1, hraw]; exact b3
    refine ⟨t, mid, { baseStmt o file t (rawArgs needsQuote d) with isMapBlockParameter := true }, rfl, h1, hraw, rfl, rfl, rfl, fun _ => ?_, fun hb => absurd b2 hb⟩
    exact (StepR.mapOk _ _ _ _ _ R hm han).step_eq
  | none =>
    obtain ⟨b1, b2, b3⟩ := a2 (fun m him => by rw [(mapCtx_eq _ _).mpr him] at hm; cases hm)
    have hi : contains o.ignoreDirectives t.value = false := by rw [h1]; exact contains_false b1
    have han : analyze file (baseStmt o file t (rawArgs needsQuote d)) (termOf d) ctx.vals o = none :=
      by
      refine analyze_congr ?_ ?_ b3
      · exact h1.symm
      · rfl
    have hpre : prepIf (baseStmt o file t (rawArgs needsQuote d)) = some (baseStmt o file t d.args) := by
      unfold prepIf
      by_cases hif : d.directive = c!"if"
      · rw [if_pos (by rw [baseStmt_directive, h1, hif]; rfl)]
        exact prepareIfArgs_of (d := baseStmt o file t (rawArgs needsQuote d)) (e3 hif)
      · rw [if_neg (by rw [baseStmt_directive, h1, beq_iff_eq]; exact hif)]
        unfold rawArgs; rw [if_neg hif]
    have hinc : doInclude env o configDir file ctx (baseStmt o file t d.args) ps = (.ok (baseStmt o file t d.args), ps) := by
      unfold doInclude
      rw [if_neg]
      rw [baseStmt_directive, h1]
      rcases b2 with b2 | b2
      · simp [b2]
      · simp [b2]
    refine ⟨t, mid, baseStmt o file t d.args, rfl, h1, rfl, rfl, rfl, rfl, fun hb => ?_, fun hb => ?_⟩
    · have := (StepR.simple (env := env) (configDir := configDir) (ps := ps) _ _ _ _ _ _ _ R hm hi han hpre hinc (by
        unfold termOf; rw [if_pos hb]; rfl)).step_eq
      rw [this]; rfl
    · exact (StepR.block (env := env) (configDir := configDir) (ps := ps) _ _ _ _ _ _ _ R hm hi han hpre hinc (by
        unfold termOf; rw [if_neg hb]; rfl)).step_eq

/-- The same for a head that is written by `Enquote`. -/
theorem step_accepted {env : Env} {o : ParseOptions} {configDir file : Str} {isPrint : Char → Bool} {ctx : Ctx} {ps : PS} {d : Directive} (hc : ¬ IsComment d)
    (hr : HeadReadable isPrint d.directive d.args) {ds : List Directive} (ha : Accepted needsQuote o ctx.vals (d :: ds)) {hs : List Tok}
    (hl : HeadOk (heads isPrint d.directive d.args))
    (hv : Vals hs (itemVals (heads isPrint d.directive d.args))) (line : Int) (rest : List Tok) :
    ∃ t mid s, hs = t :: mid ∧ s.directive = d.directive ∧ s.args = d.args ∧ s.comment = none ∧ s.block = none ∧ s.line = t.line ∧
      (d.block = none → step env o configDir file ctx t (mid ++ ⟨termOf d, line, false, none⟩ :: rest) ps = .next [s] rest ps) ∧
      (d.block ≠ none → step env o configDir file ctx t (mid ++ ⟨termOf d, line, false, none⟩ :: rest) ps = .block s [] rest ps) := by
  exact step_accepted_by hc (hr.headVals hl) ha hv line rest

/-- Trees whose heads have these values, and whose comments are read back as they are. -/
def ReadBy (hd : Str → List Str → List Item) (ds : List Directive) : Prop :=
  ∀ d, Within d ds → (IsComment d ∧ d.args = [] ∧ d.block = none ∧ CommentText (d.comment.getD [])) ∨
    (¬ IsComment d ∧ d.comment = none ∧ HeadVals (itemVals (hd d.directive d.args)) d)

theorem ReadBy.tail {hd : Str → List Str → List Item} {d : Directive} {ds : List Directive} (h : ReadBy hd (d :: ds)) : ReadBy hd ds :=
  fun x hx => h x (Within.mono hx (fun _ hm => List.mem_cons_of_mem _ hm))

theorem ReadBy.block {hd : Str → List Str → List Item} {d : Directive} {b ds : List Directive} (h : ReadBy hd (d :: ds)) (hb : d.block = some b) : ReadBy hd b :=
  fun x hx => h x (.deep (List.mem_cons_self ..) hb hx)

theorem Readable.readBy {isPrint : Char → Bool} {ds : List Directive} (h : Readable isPrint ds) : ReadBy (heads isPrint) ds := by
  intro d hd
  rcases h d hd with h1 | ⟨h1, h2, h3⟩
  · exact Or.inl h1
  · refine Or.inr ⟨h1, h2, h3.headVals ?_⟩
    rcases h.lexable.treeOk d hd with ⟨h4, -⟩ | ⟨-, h4⟩
    · exact absurd h4 h1
    · exact h4

/-- The tokens of an accepted tree are parsed as this tree. -/
theorem run_toks_by {hd : Str → List Str → List Item} {env : Env} {o : ParseOptions} {configDir file : Str} (hp : o.parseComments = true) {ds : List Directive} {toks : List Tok}
    (h : Toks hd ds toks) : ∀ (ctx : Ctx) (ps : PS) (x x' : List Tok), ps.includes = [] → ReadBy hd ds → Accepted needsQuote o ctx.vals ds →
    (x = [] ∧ x' = [] ∨ ∃ line, x = ⟨c!"}", line, false, none⟩ :: x') →
    ∃ es ps', RunOk env o configDir file ctx (toks ++ x) ps es x' ps' ∧ Same ds es ∧ Quiet ps ps' := by
  induction h with
  | nil =>
    intro ctx ps x x' hi hr ha hx
    rcases hx with ⟨rfl, rfl⟩ | ⟨line, rfl⟩
    · exact ⟨[], ps, .eof ctx ps, .nil, Quiet.refl ps⟩
    · refine ⟨[], ps, .stop _ _ _ _ _ _ ?_, .nil, Quiet.refl ps⟩
      exact (StepR.close rfl rfl).step_eq
  | @comment d ds toks line hc ht ih =>
    intro ctx ps x x' hi hr ha hx
    obtain ⟨es, ps', h1, h2, h3⟩ := ih ctx ps x x' hi hr.tail ha.tail hx
    rcases hr d (.here (by simp)) with ⟨-, r1, r2, r3⟩ | ⟨r1, -⟩
    · rw [r3.cunits]
      have hs := (StepR.comment (env := env) (o := o) (configDir := configDir) (file := file) (ctx := ctx) (t := ⟨'#' :: d.comment.getD [], line, false, none⟩)
        (toks := toks ++ x) (ps := ps) rfl (by simp [Tok.is]) (by simp [Tok.isCommentTok, hasPrefix, List.isPrefixOf])).step_eq
      rw [hp, if_pos rfl] at hs
      refine ⟨_, ps', .next _ _ _ _ _ _ _ _ _ _ hs h1, ?_, h3⟩
      refine Same.leaf hc.1 r1 ?_ r2 rfl h2
      cases hcm : d.comment with
      | none => exact absurd hcm hc.2
      | some text => simp [commentStmt]
    · exact absurd hc r1
  | @simple d ds hs toks line hc hv hb ht ih =>
    intro ctx ps x x' hi hr ha hx
    obtain ⟨es, ps', h1, h2, h3⟩ := ih ctx ps x x' hi hr.tail ha.tail hx
    rcases hr d (.here (by simp)) with ⟨r1, -⟩ | ⟨-, r1, r2⟩
    · exact absurd r1 hc
    · obtain ⟨t, mid, s, rfl, s1, s2, s3, s4, -, s5, -⟩ := step_accepted_by (env := env) (configDir := configDir) (file := file) (ps := ps) hc r2 ha hv line (toks ++ x)
      have := s5 hb
      unfold termOf at this
      rw [if_pos hb] at this
      refine ⟨s :: es, ps', ?_, Same.leaf s1.symm s2.symm (by rw [r1, s3]) hb s4 h2, h3⟩
      have hrun := RunOk.next ctx t _ ps _ _ _ _ _ _ this h1
      simpa using hrun
  | @block d b ds hs inner toks l1 l2 hc hv hb hbt ht ihb ih =>
    intro ctx ps x x' hi hr ha hx
    rcases hr d (.here (by simp)) with ⟨r1, -⟩ | ⟨-, r1, r2⟩
    · exact absurd r1 hc
    · have hbn : d.block ≠ none := by rw [hb]; simp
      obtain ⟨t, mid, s, rfl, s1, s2, s3, s4, -, -, s5⟩ := step_accepted_by (env := env) (configDir := configDir) (file := file) (ps := ps) hc r2 ha hv l1
        (inner ++ ⟨c!"}", l2, false, none⟩ :: toks ++ x)
      have hst := s5 hbn
      unfold termOf at hst
      rw [if_neg hbn] at hst
      have hq := enterBlockCtx_quiet s ctx ps hi
      obtain ⟨bs, ps1, i1, i2, i3⟩ := ihb (enterBlockCtx s ctx ps).1 (enterBlockCtx s ctx ps).2 (⟨c!"}", l2, false, none⟩ :: (toks ++ x)) (toks ++ x)
        (by rw [hq.includes, hi]) (hr.block hb) (by rw [enterBlockCtx_vals, s1]; exact ha.block hb) (Or.inr ⟨l2, rfl⟩)
      obtain ⟨es, ps', h1, h2, h3⟩ := ih ctx ps1 x x' (by rw [i3.includes, hq.includes, hi]) hr.tail ha.tail hx
      refine ⟨{ s with block := some bs } :: es, ps', ?_, Same.node (b := b) (c := bs) s1.symm s2.symm (by rw [r1]; exact s3.symm) hb rfl i2 h2, hq.trans (i3.trans h3)⟩
      have hrun := RunOk.block ctx t _ ps s [] _ ps bs _ ps1 es x' ps' hst (by simpa using i1) h1
      simpa [commentDirectives] using hrun

/-- The same for a tree written by `Enquote`. -/
theorem run_toks {isPrint : Char → Bool} {env : Env} {o : ParseOptions} {configDir file : Str} (hp : o.parseComments = true) {ds : List Directive} {toks : List Tok}
    (h : Toks (heads isPrint) ds toks) : ∀ (ctx : Ctx) (ps : PS) (x x' : List Tok), ps.includes = [] → Readable isPrint ds → Accepted needsQuote o ctx.vals ds →
    (x = [] ∧ x' = [] ∨ ∃ line, x = ⟨c!"}", line, false, none⟩ :: x') →
    ∃ es ps', RunOk env o configDir file ctx (toks ++ x) ps es x' ps' ∧ Same ds es ∧ Quiet ps ps' := by
  exact fun ctx ps x x' hi hr ha hx => run_toks_by hp h ctx ps x x' hi hr.readBy ha hx

end Verif
