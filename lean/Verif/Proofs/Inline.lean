import Verif.Spec.Inline
import Verif.Proofs.Concat
import Verif.Proofs.Project
/-!
# Textual inclusion: proofs
-/
namespace Verif
open Spec

/-- `Full r files ctx ds toks`: in the block context `ctx`, the tokens `toks` are the configuration `ds` when every include directive is replaced by the tokens of the
files it stands for, as often as necessary. -/
inductive Full (r : Rules) (files : Str → Option (List Tok)) : List Str → List Directive → List Tok → Prop
  | nil {ctx} : Full r files ctx [] []
  | comment {ctx t text ds toks} : r.comments = true → CommentTok t text → Full r files ctx ds toks →
      Full r files ctx ({ directive := c!"#", line := t.line, args := [], comment := some text } :: ds) (t :: toks)
  | skip {ctx t text ds toks} : r.comments = false → CommentTok t text → Full r files ctx ds toks → Full r files ctx ds (t :: toks)
  | param {ctx m t mid args texts semi ds toks} : InMap ctx m → t.value ≠ c!"include" → WordTok t → Words mid args texts → Mark semi c!";" →
      MapArgs m t.value args.length → Full r files ctx ds toks →
      Full r files ctx ({ directive := t.value, line := t.line, args := args, isMapBlockParameter := true } :: ds) (t :: (mid ++ semi :: toks))
  | ignored {ctx t mid args texts semi ds toks} : (∀ m, ¬ InMap ctx m) → t.value ∈ r.ignore → WordTok t → Words mid args texts → Mark semi c!";" →
      Full r files ctx ds toks → Full r files ctx ds (t :: (mid ++ semi :: toks))
  | ignoredBlock {ctx t mid args texts opening inner closing ds toks} : (∀ m, ¬ InMap ctx m) → t.value ∈ r.ignore → WordTok t → Words mid args texts →
      Mark opening c!"{" → Shape inner → Mark closing c!"}" → Full r files ctx ds toks →
      Full r files ctx ds (t :: (mid ++ opening :: (inner ++ closing :: toks)))
  | simple {ctx t mid args args' texts semi ds toks} : (∀ m, ¬ InMap ctx m) → t.value ∉ r.ignore → WordTok t → Words mid args texts → Mark semi c!";" →
      r.Ok ctx t.value args c!";" → StmtArgs t.value args args' → (t.value = c!"include" → r.names args' = some []) → Full r files ctx ds toks →
      Full r files ctx ({ directive := t.value, line := t.line, args := args' } :: ((if r.comments then commentsAt t.line texts else []) ++ ds))
        (t :: (mid ++ semi :: toks))
  | block {ctx t mid args args' texts opening b inner closing ds toks} : (∀ m, ¬ InMap ctx m) → t.value ∉ r.ignore → t.value ≠ c!"include" → WordTok t →
      Words mid args texts → Mark opening c!"{" → r.Ok ctx t.value args c!"{" → StmtArgs t.value args args' →
      Full r files (enter ctx t.value) b inner → Mark closing c!"}" → Full r files ctx ds toks →
      Full r files ctx ({ directive := t.value, line := t.line, args := args', block := some b } ::
          ((if r.comments then commentsAt t.line texts else []) ++ ds))
        (t :: (mid ++ opening :: (inner ++ closing :: toks)))
  | incl {ctx t mid args texts semi l ds toks} : (∀ m, ¬ InMap ctx m) → t.value ∉ r.ignore → t.value = c!"include" → WordTok t → Words mid args texts →
      (r.comments = true → texts = []) → Mark semi c!";" → r.Ok ctx t.value args c!";" → r.names args = some l → l ≠ [] →
      (∀ f ∈ l, ∃ ts, files f = some ts ∧ Shape ts) →
      Full r files ctx ds (l.flatMap (fun f => (files f).getD []) ++ toks) → Full r files ctx ds (t :: (mid ++ semi :: toks))


/-! ## Places where a statement begins -/

theorem Spec.AtStatement.suffix {a b : List Tok} (h : AtStatement (a ++ b)) : AtStatement b := by
  intro x t cs e hcs
  exact h (a ++ x) t cs (by rw [e, List.append_assoc]) hcs

theorem atStatement_nil : AtStatement [] := by intro a t cs e; simp at e

theorem mark_not_word {t : Tok} (h : Mark t c!";" ∨ Mark t c!"{" ∨ Mark t c!"}") : ¬ WordTok t := by
  intro hw
  rcases h with h | h | h
  · exact hw.2.2.2 h
  · exact hw.2.1 h
  · exact hw.2.2.1 h

theorem mark_not_comment {t : Tok} {text : Str} (h : Mark t c!";" ∨ Mark t c!"{" ∨ Mark t c!"}") : ¬ CommentTok t text := by
  rintro ⟨-, h'⟩
  rcases h with ⟨-, h⟩ | ⟨-, h⟩ | ⟨-, h⟩ <;> rw [h] at h' <;> simp at h'

/-- A statement has one end. -/
theorem Spec.Words.split {mid mid' : List Tok} {args args' ts ts' : List Str} {m m' : Tok} {rest rest' : List Tok} (h : Words mid args ts) (h' : Words mid' args' ts')
    (hm : Mark m c!";" ∨ Mark m c!"{" ∨ Mark m c!"}") (hm' : Mark m' c!";" ∨ Mark m' c!"{" ∨ Mark m' c!"}") (e : mid ++ m :: rest = mid' ++ m' :: rest') :
    mid = mid' ∧ args = args' ∧ ts = ts' ∧ m = m' ∧ rest = rest' := by
  induction h generalizing mid' args' ts' with
  | nil =>
    cases h' with
    | nil => cases e; exact ⟨rfl, rfl, rfl, rfl, rfl⟩
    | word hw _ => cases e; exact absurd hw (mark_not_word hm)
    | comment hc _ => cases e; exact absurd hc (mark_not_comment hm)
  | word hw _ ih =>
    cases h' with
    | nil => cases e; exact absurd hw (mark_not_word hm')
    | word _ h' =>
      simp only [List.cons_append, List.cons.injEq] at e
      obtain ⟨rfl, e⟩ := e
      obtain ⟨rfl, rfl, rfl, rfl, rfl⟩ := ih h' e
      exact ⟨rfl, rfl, rfl, rfl, rfl⟩
    | comment hc _ =>
      simp only [List.cons_append, List.cons.injEq] at e
      obtain ⟨rfl, -⟩ := e
      exact absurd hc (hw.1 _)
  | comment hc _ ih =>
    cases h' with
    | nil => cases e; exact absurd hc (mark_not_comment hm')
    | word hw _ =>
      simp only [List.cons_append, List.cons.injEq] at e
      obtain ⟨rfl, -⟩ := e
      exact absurd hc (hw.1 _)
    | comment hc' h' =>
      simp only [List.cons_append, List.cons.injEq] at e
      obtain ⟨rfl, e⟩ := e
      obtain ⟨rfl, rfl, rfl, rfl, rfl⟩ := ih h' e
      obtain ⟨-, k1⟩ := hc
      obtain ⟨-, k2⟩ := hc'
      rw [k1] at k2
      cases k2
      exact ⟨rfl, rfl, rfl, rfl, rfl⟩

/-- The last word of a statement. -/
theorem Spec.Words.lastWord {mid : List Tok} {args ts : List Str} (h : Words mid args ts) : ∀ {t : Tok}, WordTok t →
    ∃ a u cs, t :: mid = a ++ u :: cs ∧ WordTok u ∧ ∀ c ∈ cs, ∃ text, CommentTok c text := by
  induction h with
  | nil => intro t ht; exact ⟨[], t, [], rfl, ht, by simp⟩
  | @word t' mid args ts hw _ ih =>
    intro t _
    obtain ⟨a, u, cs, e, hu, hcs⟩ := ih hw
    exact ⟨t :: a, u, cs, by rw [e]; rfl, hu, hcs⟩
  | @comment t' text mid args ts hc _ ih =>
    intro t ht
    obtain ⟨a, u, cs, e, hu, hcs⟩ := ih ht
    cases a with
    | nil =>
      cases e
      refine ⟨[], t, t' :: mid, rfl, ht, fun c hcm => ?_⟩
      rcases List.mem_cons.mp hcm with rfl | hcm
      · exact ⟨_, hc⟩
      · exact hcs c hcm
    | cons x a =>
      simp only [List.cons_append, List.cons.injEq] at e
      obtain ⟨rfl, rfl⟩ := e
      exact ⟨t :: t' :: a, u, cs, rfl, hu, hcs⟩

/-- Words end no statement. -/
theorem words_not_at {t : Tok} {mid : List Tok} {args ts : List Str} (ht : WordTok t) (h : Words mid args ts) : ¬ AtStatement (t :: mid) := by
  intro k
  obtain ⟨a, u, cs, e, hu, hcs⟩ := h.lastWord ht
  rcases k a u cs e hcs with ⟨text, hc⟩ | k
  · exact hu.1 _ hc
  · exact mark_not_word k hu

theorem Spec.Words.prefix {x y : List Tok} {args ts : List Str} (h : Words (x ++ y) args ts) : ∃ args' ts', Words x args' ts' := by
  induction x generalizing args ts with
  | nil => exact ⟨[], [], .nil⟩
  | cons t x ih =>
    cases h with
    | word hw h => obtain ⟨a, b, k⟩ := ih h; exact ⟨_, _, .word hw k⟩
    | comment hc h => obtain ⟨a, b, k⟩ := ih h; exact ⟨_, _, .comment hc k⟩

/-- Where a statement begins in a list of tokens that starts with a statement. -/
theorem Spec.AtStatement.split {t : Tok} {mid : List Tok} {args ts : List Str} {m : Tok} {rest T X : List Tok} (ht : WordTok t) (hw : Words mid args ts)
    (hat : AtStatement T) (e : t :: (mid ++ m :: rest) = T ++ X) : T = [] ∨ ∃ T', T = t :: (mid ++ m :: T') ∧ rest = T' ++ X ∧ AtStatement T' := by
  cases T with
  | nil => exact Or.inl rfl
  | cons t0 T =>
    simp only [List.cons_append, List.cons.injEq] at e
    obtain ⟨rfl, e⟩ := e
    rcases List.append_eq_append_iff.mp e with ⟨a, rfl, h2⟩ | ⟨a, rfl, h2⟩
    · cases a with
      | nil =>
        rw [List.append_nil] at hat
        exact absurd hat (words_not_at ht hw)
      | cons m' a =>
        simp only [List.cons_append, List.cons.injEq] at h2
        obtain ⟨rfl, rfl⟩ := h2
        exact Or.inr ⟨a, by simp, rfl, by
          have : t :: (mid ++ m :: a) = (t :: (mid ++ [m])) ++ a := by simp
          rw [this] at hat
          exact hat.suffix⟩
    · obtain ⟨args', ts', hw'⟩ := hw.prefix
      exact absurd hat (words_not_at ht hw')

/-- Where a statement is in a list of tokens with a closing brace. -/
theorem stmt_split {inner toks T X Y : List Tok} {closing : Tok} (hc : Mark closing c!"}") (hX : ∀ x ∈ X, ¬ Mark x c!"}")
    (e : inner ++ closing :: toks = T ++ (X ++ Y)) :
    (∃ T', T = inner ++ closing :: T' ∧ toks = T' ++ (X ++ Y)) ∨ ∃ Y', inner = T ++ (X ++ Y') ∧ Y = Y' ++ closing :: toks := by
  rcases List.append_eq_append_iff.mp e with ⟨a, rfl, h2⟩ | ⟨a, rfl, h2⟩
  · cases a with
    | nil =>
      right
      cases X with
      | nil => exact ⟨[], by simp, by simpa using h2.symm⟩
      | cons x X =>
        simp only [List.nil_append, List.cons_append, List.cons.injEq] at h2
        exact absurd (h2.1 ▸ hc) (hX x (by simp))
    | cons c a =>
      simp only [List.cons_append, List.cons.injEq] at h2
      obtain ⟨rfl, rfl⟩ := h2
      exact Or.inl ⟨a, rfl, rfl⟩
  · right
    rcases List.append_eq_append_iff.mp h2.symm with ⟨b, rfl, h4⟩ | ⟨b, rfl, h4⟩
    · cases b with
      | nil => exact ⟨[], by simp, by simpa using h4.symm⟩
      | cons x b =>
        simp only [List.cons_append, List.cons.injEq] at h4
        exact absurd (h4.1 ▸ hc) (hX x (by simp))
    · exact ⟨b, rfl, h4⟩

/-- The tokens of an include directive. -/
theorem Spec.IncludeStmt.no_close {args : List Str} {I : List Tok} (h : IncludeStmt args I) : ∀ x ∈ I, ¬ Mark x c!"}" := by
  obtain ⟨t, mid, semi, rfl, ht, -, hw, hs⟩ := h
  intro x hx hm
  rcases List.mem_cons.mp hx with rfl | hx
  · exact ht.2.2.1 hm
  · rcases List.mem_append.mp hx with hx | hx
    · have key : ∀ {mid : List Tok} {args ts : List Str}, Words mid args ts → ∀ x ∈ mid, ¬ Mark x c!"}" := by
        intro mid args ts h
        induction h with
        | nil => simp
        | word hw _ ih =>
          intro x hx
          rcases List.mem_cons.mp hx with rfl | hx
          · exact hw.2.2.1
          · exact ih x hx
        | comment hc _ ih =>
          intro x hx
          rcases List.mem_cons.mp hx with rfl | hx
          · exact fun hm => mark_not_comment (Or.inr (Or.inr hm)) hc
          · exact ih x hx
      exact key hw x hx hm
    · obtain rfl := List.mem_singleton.mp hx
      have := hm.2
      rw [hs.2] at this
      cases this

/-- A statement that begins with the tokens of an include directive is this directive. -/
theorem Spec.IncludeStmt.head {args args' ts : List Str} {I X rest mid : List Tok} {t m : Tok} (h : IncludeStmt args I) (hw : Words mid args' ts)
    (hm : Mark m c!";" ∨ Mark m c!"{" ∨ Mark m c!"}") (e : t :: (mid ++ m :: rest) = I ++ X) :
    t.value = c!"include" ∧ args' = args ∧ ts = [] ∧ Mark m c!";" ∧ rest = X ∧ I = t :: (mid ++ [m]) := by
  obtain ⟨t', mid', semi, rfl, ht, hv, hw', hs⟩ := h
  simp only [List.cons_append, List.append_assoc, List.nil_append, List.cons.injEq] at e
  obtain ⟨rfl, e⟩ := e
  obtain ⟨rfl, rfl, rfl, rfl, rfl⟩ := hw.split hw' hm (Or.inl hs) e
  exact ⟨hv, rfl, rfl, hs, rfl, rfl⟩

theorem Spec.IncludeStmt.not_comment {args : List Str} {I X rest : List Tok} {t : Tok} {text : Str} (h : IncludeStmt args I) (hc : CommentTok t text)
    (e : t :: rest = I ++ X) : False := by
  obtain ⟨t', mid', semi, rfl, ht, hv, hw', hs⟩ := h
  simp only [List.cons_append, List.cons.injEq] at e
  obtain ⟨rfl, -⟩ := e
  exact ht.1 _ hc

theorem Spec.IncludeStmt.ne_nil {args : List Str} {I : List Tok} (h : IncludeStmt args I) : I ≠ [] := by
  obtain ⟨t', mid', semi, rfl, -⟩ := h
  simp

theorem Spec.AtStatement.cons {t : Tok} {T X rest : List Tok} (hat : AtStatement T) (e : t :: rest = T ++ X) :
    T = [] ∨ ∃ T', T = t :: T' ∧ rest = T' ++ X ∧ AtStatement T' := by
  cases T with
  | nil => exact Or.inl rfl
  | cons t0 T =>
    simp only [List.cons_append, List.cons.injEq] at e
    obtain ⟨rfl, rfl⟩ := e
    exact Or.inr ⟨T, rfl, rfl, Spec.AtStatement.suffix (a := [t]) hat⟩

theorem Spec.Shape.append {a b : List Tok} (ha : Shape a) (hb : Shape b) : Shape (a ++ b) := by
  induction ha with
  | nil => exact hb
  | comment hc _ ih => exact .comment hc ih
  | simple ht hw hs _ ih =>
    rw [List.cons_append, List.append_assoc, List.cons_append]
    exact .simple ht hw hs ih
  | block ht hw ho hi hc _ _ ih =>
    rw [List.cons_append, List.append_assoc, List.cons_append, List.append_assoc, List.cons_append]
    exact .block ht hw ho hi hc ih

theorem Spec.AtStatement.append {a b : List Tok} (ha : AtStatement a) (hb : AtStatement b) : AtStatement (a ++ b) := by
  intro x t cs e hcs
  rcases List.append_eq_append_iff.mp e with ⟨y, rfl, h2⟩ | ⟨y, rfl, h2⟩
  · exact hb y t cs h2 hcs
  · cases y with
    | nil => exact hb [] t cs h2.symm hcs
    | cons u y =>
      simp only [List.cons_append, List.cons.injEq] at h2
      obtain ⟨rfl, rfl⟩ := h2
      exact ha x t y rfl fun c hc => hcs c (by simp [hc])

theorem at_mark {m : Tok} (hm : Mark m c!";" ∨ Mark m c!"{" ∨ Mark m c!"}") (a : List Tok) : AtStatement (a ++ [m]) := by
  intro x t cs e hcs
  rcases List.eq_nil_or_concat cs with rfl | ⟨cs', c, rfl⟩
  · obtain ⟨-, k⟩ := List.append_inj' e rfl
    cases k
    exact Or.inr hm
  · rw [List.concat_eq_append] at e hcs
    have : a ++ [m] = (x ++ t :: cs') ++ [c] := by rw [e]; simp
    obtain ⟨-, k⟩ := List.append_inj' this rfl
    cases k
    obtain ⟨text, hc⟩ := hcs m (by simp)
    exact absurd hc (mark_not_comment hm)

theorem Spec.Shape.at_statement {a : List Tok} (h : Shape a) : AtStatement a := by
  induction h with
  | nil => exact atStatement_nil
  | @comment t text toks hc _ ih =>
    refine Spec.AtStatement.append (a := [t]) ?_ ih
    intro x u cs e _
    cases x with
    | nil => cases e; exact Or.inl ⟨_, hc⟩
    | cons y x => simp at e
  | @simple t mid args texts semi toks _ _ hs _ ih =>
    have := (at_mark (Or.inl hs) (t :: mid)).append ih
    simpa using this
  | @block t mid args texts opening inner closing toks _ _ _ _ hc _ _ ih =>
    have := (at_mark (Or.inr (Or.inr hc)) (t :: (mid ++ opening :: inner))).append ih
    simpa using this

/-- Statements can be put in the place of a statement. -/
theorem Spec.Shape.replace {args : List Str} {I B : List Tok} (hI : IncludeStmt args I) (hB : Shape B) {toks : List Tok} (h : Shape toks) :
    ∀ {T1 T2 : List Tok}, AtStatement T1 → toks = T1 ++ (I ++ T2) → Shape (T1 ++ (B ++ T2)) := by
  induction h with
  | nil =>
    intro T1 T2 _ e
    have := congrArg List.length e
    have := List.length_pos_iff.mpr hI.ne_nil
    simp at *
    omega
  | comment hc _ ih =>
    intro T1 T2 hat e
    rcases hat.cons e with rfl | ⟨T', rfl, e, hat'⟩
    · exact (hI.not_comment hc e).elim
    · exact .comment hc (ih hat' e)
  | simple ht hw hs hrest ih =>
    intro T1 T2 hat e
    rcases hat.split ht hw e with rfl | ⟨T', rfl, e, hat'⟩
    · obtain ⟨-, -, -, -, rfl, -⟩ := hI.head hw (Or.inl hs) e
      exact hB.append hrest
    · rw [List.cons_append, List.append_assoc, List.cons_append]
      exact .simple ht hw hs (ih hat' e)
  | @block t mid args texts opening inner closing toks ht hw ho hinner hc hrest ih1 ih2 =>
    intro T1 T2 hat e
    rcases hat.split ht hw e with rfl | ⟨T', rfl, e, hat'⟩
    · obtain ⟨-, -, -, hm, -, -⟩ := hI.head hw (Or.inr (Or.inl ho)) e
      have := ho.2; rw [hm.2] at this; cases this
    · rw [List.cons_append, List.append_assoc, List.cons_append]
      rcases stmt_split hc hI.no_close e with ⟨T'', rfl, e2⟩ | ⟨Y', e2, rfl⟩
      · rw [List.append_assoc, List.cons_append]
        refine .block ht hw ho hinner hc (ih2 ?_ e2)
        have : inner ++ closing :: T'' = (inner ++ [closing]) ++ T'' := by simp
        rw [this] at hat'
        exact hat'.suffix
      · have := ih1 hat' e2
        have k := Shape.block ht hw ho this hc hrest
        simpa using k

/-- Putting the tokens of the files in the place of an include directive leaves the configuration as it is. -/
theorem Full.replace {r : Rules} {files : Str → Option (List Tok)} {args l : List Str} {I : List Tok} (hI : IncludeStmt args I) (hn : r.names args = some l)
    (hl : l ≠ []) (hign : c!"include" ∉ r.ignore) (hfiles : ∀ f ∈ l, ∃ ts, files f = some ts ∧ Shape ts) {ctx : List Str} {ds : List Directive} {toks : List Tok}
    (h : Full r files ctx ds toks) :
    ∀ {T1 T2 : List Tok}, AtStatement T1 → toks = T1 ++ (I ++ T2) → Full r files ctx ds (T1 ++ (l.flatMap (fun f => (files f).getD []) ++ T2)) := by
  have hflat : ∀ l : List Str, (∀ f ∈ l, ∃ ts, files f = some ts ∧ Shape ts) → Shape (l.flatMap (fun f => (files f).getD [])) := by
    intro l hl
    induction l with
    | nil => exact .nil
    | cons f l ih =>
      obtain ⟨ts, h1, h2⟩ := hl f (by simp)
      rw [List.flatMap_cons, h1]
      exact h2.append (ih fun g hg => hl g (by simp [hg]))
  induction h with
  | nil =>
    intro T1 T2 _ e
    have := congrArg List.length e
    have := List.length_pos_iff.mpr hI.ne_nil
    simp at *
    omega
  | comment hr hc _ ih =>
    intro T1 T2 hat e
    rcases hat.cons e with rfl | ⟨T', rfl, e, hat'⟩
    · exact (hI.not_comment hc e).elim
    · exact .comment hr hc (ih hat' e)
  | skip hr hc _ ih =>
    intro T1 T2 hat e
    rcases hat.cons e with rfl | ⟨T', rfl, e, hat'⟩
    · exact (hI.not_comment hc e).elim
    · exact .skip hr hc (ih hat' e)
  | param hm hne ht hw hs ha hrest ih =>
    intro T1 T2 hat e
    rcases hat.split ht hw e with rfl | ⟨T', rfl, e, hat'⟩
    · exact absurd (hI.head hw (Or.inl hs) e).1 hne
    · rw [List.cons_append, List.append_assoc, List.cons_append]
      exact .param hm hne ht hw hs ha (ih hat' e)
  | ignored hm hi ht hw hs hrest ih =>
    intro T1 T2 hat e
    rcases hat.split ht hw e with rfl | ⟨T', rfl, e, hat'⟩
    · rw [(hI.head hw (Or.inl hs) e).1] at hi
      exact absurd hi hign
    · rw [List.cons_append, List.append_assoc, List.cons_append]
      exact .ignored hm hi ht hw hs (ih hat' e)
  | @ignoredBlock ctx t mid args texts opening inner closing ds toks hm hi ht hw ho hinner hc hrest ih =>
    intro T1 T2 hat e
    rcases hat.split ht hw e with rfl | ⟨T', rfl, e, hat'⟩
    · rw [(hI.head hw (Or.inr (Or.inl ho)) e).1] at hi
      exact absurd hi hign
    · rw [List.cons_append, List.append_assoc, List.cons_append]
      rcases stmt_split hc hI.no_close e with ⟨T'', rfl, e2⟩ | ⟨Y', e2, rfl⟩
      · rw [List.append_assoc, List.cons_append]
        refine .ignoredBlock hm hi ht hw ho hinner hc (ih ?_ e2)
        have : inner ++ closing :: T'' = (inner ++ [closing]) ++ T'' := by simp
        rw [this] at hat'
        exact hat'.suffix
      · have := Spec.Shape.replace hI (hflat l hfiles) hinner hat' e2
        have k := Full.ignoredBlock hm hi ht hw ho this hc hrest
        simpa using k
  | simple hm hi ht hw hs hok hst hinc hrest ih =>
    intro T1 T2 hat e
    rcases hat.split ht hw e with rfl | ⟨T', rfl, e, hat'⟩
    · obtain ⟨hv, rfl, -, -, -, -⟩ := hI.head hw (Or.inl hs) e
      have := hinc hv
      rw [hv] at hst
      obtain rfl : _ = _ := hst
      rw [hn] at this
      exact absurd (Option.some.inj this) hl
    · rw [List.cons_append, List.append_assoc, List.cons_append]
      exact .simple hm hi ht hw hs hok hst hinc (ih hat' e)
  | @block ctx t mid args args' texts opening b inner closing ds toks hm hi hne ht hw ho hok hst hinner hc hrest ih1 ih2 =>
    intro T1 T2 hat e
    rcases hat.split ht hw e with rfl | ⟨T', rfl, e, hat'⟩
    · exact absurd (hI.head hw (Or.inr (Or.inl ho)) e).1 hne
    · rw [List.cons_append, List.append_assoc, List.cons_append]
      rcases stmt_split hc hI.no_close e with ⟨T'', rfl, e2⟩ | ⟨Y', e2, rfl⟩
      · rw [List.append_assoc, List.cons_append]
        refine .block hm hi hne ht hw ho hok hst hinner hc (ih2 ?_ e2)
        have : inner ++ closing :: T'' = (inner ++ [closing]) ++ T'' := by simp
        rw [this] at hat'
        exact hat'.suffix
      · have := ih1 hat' e2
        have k := Full.block hm hi hne ht hw ho hok hst this hc hrest
        simpa using k
  | @incl ctx t mid args' texts semi l' ds toks hm hi hv ht hw htx hs hok hn' hl' hf hrest ih =>
    intro T1 T2 hat e
    rcases hat.split ht hw e with rfl | ⟨T', rfl, e, hat'⟩
    · obtain ⟨-, rfl, -, -, rfl, -⟩ := hI.head hw (Or.inl hs) e
      rw [hn] at hn'
      cases hn'
      exact hrest
    · rw [List.cons_append, List.append_assoc, List.cons_append]
      refine .incl hm hi hv ht hw htx hs hok hn' hl' hf ?_
      rw [← List.append_assoc]
      refine ih ?_ (by rw [e, List.append_assoc])
      exact (hflat l' hf).at_statement.append hat'

/-! ## Other lines -/

/-- The token without its line. -/
def noLine (t : Tok) : Tok := { t with line := 0 }

theorem noLine_later (n : Int) (t : Tok) : noLine (laterTok n t) = noLine t := rfl

theorem noLine_value {t t' : Tok} (h : noLine t' = noLine t) : t'.value = t.value := by
  have := congrArg Tok.value h; exact this

theorem noLine_quoted {t t' : Tok} (h : noLine t' = noLine t) : t'.quoted = t.quoted := by
  have := congrArg Tok.quoted h; exact this

theorem noLine_mark {t t' : Tok} (h : noLine t' = noLine t) (v : Str) : Mark t' v ↔ Mark t v := by
  unfold Mark; rw [noLine_value h, noLine_quoted h]

theorem noLine_comment {t t' : Tok} (h : noLine t' = noLine t) (text : Str) : CommentTok t' text ↔ CommentTok t text := noLine_mark h _

theorem noLine_word {t t' : Tok} (h : noLine t' = noLine t) : WordTok t' ↔ WordTok t := by
  unfold WordTok
  simp only [noLine_comment h, noLine_mark h]

theorem noLine_words {mid : List Tok} {args ts : List Str} (h : Words mid args ts) : ∀ {mid' : List Tok}, mid'.map noLine = mid.map noLine → Words mid' args ts := by
  induction h with
  | nil => intro mid' e; simp at e; subst e; exact .nil
  | word hw _ ih =>
    intro mid' e
    rw [List.map_cons, List.map_eq_cons_iff] at e
    obtain ⟨t', m', rfl, e1, e2⟩ := e
    rw [← noLine_value e1]
    exact .word ((noLine_word e1).mpr hw) (ih e2)
  | comment hc _ ih =>
    intro mid' e
    rw [List.map_cons, List.map_eq_cons_iff] at e
    obtain ⟨t', m', rfl, e1, e2⟩ := e
    exact .comment ((noLine_comment e1 _).mpr hc) (ih e2)

theorem noLine_shape {toks : List Tok} (h : Shape toks) : ∀ {toks' : List Tok}, toks'.map noLine = toks.map noLine → Shape toks' := by
  induction h with
  | nil => intro t e; simp at e; subst e; exact .nil
  | comment hc _ ih =>
    intro toks' e
    rw [List.map_cons, List.map_eq_cons_iff] at e
    obtain ⟨t', m', rfl, e1, e2⟩ := e
    exact .comment ((noLine_comment e1 _).mpr hc) (ih e2)
  | simple ht hw hs _ ih =>
    intro toks' e
    simp only [List.map_cons, List.map_append, List.map_eq_cons_iff, List.map_eq_append_iff] at e
    obtain ⟨t', m', rfl, e1, mid', r', rfl, e2, semi', q', rfl, e3, e4⟩ := e
    exact .simple ((noLine_word e1).mpr ht) (noLine_words hw e2) ((noLine_mark e3 _).mpr hs) (ih e4)
  | block ht hw ho _ hc _ ih1 ih2 =>
    intro toks' e
    simp only [List.map_cons, List.map_append, List.map_eq_cons_iff, List.map_eq_append_iff] at e
    obtain ⟨t', m', rfl, e1, mid', r', rfl, e2, o', q', rfl, e3, i', w', rfl, e4, c', z', rfl, e5, e6⟩ := e
    exact .block ((noLine_word e1).mpr ht) (noLine_words hw e2) ((noLine_mark e3 _).mpr ho) (ih1 e4) ((noLine_mark e5 _).mpr hc) (ih2 e6)

theorem plainList_append (a b : List Directive) : plainList (a ++ b) = plainList a ++ plainList b := by
  induction a with
  | nil => rfl
  | cons d a ih => rw [List.cons_append, plainList, plainList, ih]; rfl

theorem plainList_comments (l l' : Int) (texts : List Str) : plainList (commentsAt l texts) = plainList (commentsAt l' texts) := by
  induction texts with
  | nil => rfl
  | cons t ts ih =>
    show plain _ :: plainList (commentsAt l ts) = plain _ :: plainList (commentsAt l' ts)
    rw [ih]; rfl

theorem Full.lines {r : Rules} {files : Str → Option (List Tok)} {ctx : List Str} {ds : List Directive} {toks : List Tok} (h : Full r files ctx ds toks) :
    ∀ {toks' : List Tok}, toks'.map noLine = toks.map noLine → ∃ ds', Full r files ctx ds' toks' ∧ plainList ds' = plainList ds := by
  induction h with
  | nil => intro t e; simp at e; subst e; exact ⟨[], .nil, rfl⟩
  | comment hr hc _ ih =>
    intro toks' e
    rw [List.map_cons, List.map_eq_cons_iff] at e
    obtain ⟨t', m', rfl, e1, e2⟩ := e
    obtain ⟨ds', h1, h2⟩ := ih e2
    exact ⟨_, .comment hr ((noLine_comment e1 _).mpr hc) h1, by simp [plainList, plain, h2, plainOpt]⟩
  | skip hr hc _ ih =>
    intro toks' e
    rw [List.map_cons, List.map_eq_cons_iff] at e
    obtain ⟨t', m', rfl, e1, e2⟩ := e
    obtain ⟨ds', h1, h2⟩ := ih e2
    exact ⟨_, .skip hr ((noLine_comment e1 _).mpr hc) h1, h2⟩
  | param hm hne ht hw hs ha _ ih =>
    intro toks' e
    simp only [List.map_cons, List.map_append, List.map_eq_cons_iff, List.map_eq_append_iff] at e
    obtain ⟨t', m', rfl, e1, mid', r', rfl, e2, semi', q', rfl, e3, e4⟩ := e
    obtain ⟨ds', h1, h2⟩ := ih e4
    have hv := noLine_value e1
    exact ⟨_, .param hm (by rwa [hv]) ((noLine_word e1).mpr ht) (noLine_words hw e2) ((noLine_mark e3 _).mpr hs) (by rwa [hv]) h1,
      by simp [plainList, plain, h2, hv, plainOpt]⟩
  | ignored hm hi ht hw hs _ ih =>
    intro toks' e
    simp only [List.map_cons, List.map_append, List.map_eq_cons_iff, List.map_eq_append_iff] at e
    obtain ⟨t', m', rfl, e1, mid', r', rfl, e2, semi', q', rfl, e3, e4⟩ := e
    obtain ⟨ds', h1, h2⟩ := ih e4
    have hv := noLine_value e1
    exact ⟨_, .ignored hm (by rwa [hv]) ((noLine_word e1).mpr ht) (noLine_words hw e2) ((noLine_mark e3 _).mpr hs) h1, h2⟩
  | ignoredBlock hm hi ht hw ho hinner hc _ ih =>
    intro toks' e
    simp only [List.map_cons, List.map_append, List.map_eq_cons_iff, List.map_eq_append_iff] at e
    obtain ⟨t', m', rfl, e1, mid', r', rfl, e2, o', q', rfl, e3, i', w', rfl, e4, c', z', rfl, e5, e6⟩ := e
    obtain ⟨ds', h1, h2⟩ := ih e6
    have hv := noLine_value e1
    exact ⟨_, .ignoredBlock hm (by rwa [hv]) ((noLine_word e1).mpr ht) (noLine_words hw e2) ((noLine_mark e3 _).mpr ho) (noLine_shape hinner e4)
      ((noLine_mark e5 _).mpr hc) h1, h2⟩
  | @simple ctx t mid args args' texts semi ds toks hm hi ht hw hs hok hst hinc _ ih =>
    intro toks' e
    simp only [List.map_cons, List.map_append, List.map_eq_cons_iff, List.map_eq_append_iff] at e
    obtain ⟨t', m', rfl, e1, mid', r', rfl, e2, semi', q', rfl, e3, e4⟩ := e
    obtain ⟨ds', h1, h2⟩ := ih e4
    have hv := noLine_value e1
    refine ⟨_, .simple hm (by rwa [hv]) ((noLine_word e1).mpr ht) (noLine_words hw e2) ((noLine_mark e3 _).mpr hs) (by rwa [hv]) (by rwa [hv]) (by rwa [hv]) h1, ?_⟩
    rw [plainList, plainList, plainList_append, plainList_append, h2]
    congr 1
    · simp [plain, hv, plainOpt]
    · congr 1
      split
      · exact plainList_comments _ _ _
      · rfl
  | @block ctx t mid args args' texts opening b inner closing ds toks hm hi hne ht hw ho hok hst _ hc _ ih1 ih2 =>
    intro toks' e
    simp only [List.map_cons, List.map_append, List.map_eq_cons_iff, List.map_eq_append_iff] at e
    obtain ⟨t', m', rfl, e1, mid', r', rfl, e2, o', q', rfl, e3, i', w', rfl, e4, c', z', rfl, e5, e6⟩ := e
    obtain ⟨b', k1, k2⟩ := ih1 e4
    obtain ⟨ds', h1, h2⟩ := ih2 e6
    have hv := noLine_value e1
    refine ⟨_, .block hm (by rwa [hv]) (by rwa [hv]) ((noLine_word e1).mpr ht) (noLine_words hw e2) ((noLine_mark e3 _).mpr ho) (by rwa [hv]) (by rwa [hv])
      (by rw [hv]; exact k1) ((noLine_mark e5 _).mpr hc) h1, ?_⟩
    rw [plainList, plainList, plainList_append, plainList_append, h2]
    congr 1
    · simp [plain, hv, plainOpt, k2]
    · congr 1
      split
      · exact plainList_comments _ _ _
      · rfl
  | @incl ctx t mid args texts semi l ds toks hm hi hinc ht hw htx hs hok hn hl hf _ ih =>
    intro toks' e
    simp only [List.map_cons, List.map_append, List.map_eq_cons_iff, List.map_eq_append_iff] at e
    obtain ⟨t', m', rfl, e1, mid', r', rfl, e2, semi', q', rfl, e3, e4⟩ := e
    have hv := noLine_value e1
    obtain ⟨ds', h1, h2⟩ := ih (toks' := l.flatMap (fun f => (files f).getD []) ++ q') (by rw [List.map_append, List.map_append, e4])
    exact ⟨_, .incl hm (by rwa [hv]) (by rwa [hv]) ((noLine_word e1).mpr ht) (noLine_words hw e2) htx ((noLine_mark e3 _).mpr hs) (by rwa [hv]) hn hl hf h1, h2⟩

/-! ## Nothing left to include -/

theorem Spec.NoneLeft.suffix {N : List Str → Option (List Str)} {a b : List Tok} (h : NoneLeft N (a ++ b)) (ha : AtStatement a) : NoneLeft N b := by
  intro x t mid args texts semi y e hx
  exact h (a ++ x) t mid args texts semi y (by rw [e, List.append_assoc]) (ha.append hx)

theorem Spec.NoneLeft.prefix {N : List Str → Option (List Str)} {a b : List Tok} (h : NoneLeft N (a ++ b)) : NoneLeft N a := by
  intro x t mid args texts semi y e hx
  exact h x t mid args texts semi (y ++ b) (by rw [e]; simp) hx

theorem Full.conf {r : Rules} {files : Str → Option (List Tok)} {ctx : List Str} {ds : List Directive} {toks : List Tok} (h : Full r files ctx ds toks)
    {N : List Str → Option (List Str)} (hN : ∀ a, (N a).isSome = true) : NoneLeft r.names toks → Conf { r with names := N } ctx ds toks := by
  induction h with
  | nil => exact fun _ => .nil
  | @comment ctx t text ds toks hr hc _ ih =>
    intro hno
    refine .comment hr hc (ih (Spec.NoneLeft.suffix (a := [t]) hno ?_))
    exact (Shape.comment hc .nil).at_statement
  | @skip ctx t text ds toks hr hc _ ih =>
    intro hno
    refine .skip hr hc (ih (Spec.NoneLeft.suffix (a := [t]) hno ?_))
    exact (Shape.comment hc .nil).at_statement
  | @param ctx m t mid args texts semi ds toks hm hne ht hw hs ha _ ih =>
    intro hno
    refine .param hm ht hw hs ha (ih ?_)
    exact Spec.NoneLeft.suffix (a := t :: (mid ++ [semi])) (by simpa using hno) (at_mark (Or.inl hs) (t :: mid))
  | @ignored ctx t mid args texts semi ds toks hm hi ht hw hs _ ih =>
    intro hno
    refine .ignored hm hi ht hw hs (ih ?_)
    exact Spec.NoneLeft.suffix (a := t :: (mid ++ [semi])) (by simpa using hno) (at_mark (Or.inl hs) (t :: mid))
  | @ignoredBlock ctx t mid args texts opening inner closing ds toks hm hi ht hw ho hinner hc _ ih =>
    intro hno
    refine .ignoredBlock hm hi ht hw ho hinner hc (ih ?_)
    exact Spec.NoneLeft.suffix (a := t :: (mid ++ opening :: (inner ++ [closing]))) (by simpa using hno)
      (by have := at_mark (Or.inr (Or.inr hc)) (t :: (mid ++ opening :: inner)); simpa using this)
  | @simple ctx t mid args args' texts semi ds toks hm hi ht hw hs hok hst hinc _ ih =>
    intro hno
    refine Conf.simple (r := { r with names := N }) hm hi ht hw hs hok hst (fun _ => hN _) (ih ?_)
    exact Spec.NoneLeft.suffix (a := t :: (mid ++ [semi])) (by simpa using hno) (at_mark (Or.inl hs) (t :: mid))
  | @block ctx t mid args args' texts opening b inner closing ds toks hm hi hne ht hw ho hok hst _ hc _ ih1 ih2 =>
    intro hno
    refine Conf.block (r := { r with names := N }) hm hi ht hw ho hok hst (fun h => absurd h hne) (ih1 ?_) hc (ih2 ?_)
    · have h1 : NoneLeft r.names (inner ++ closing :: toks) :=
        Spec.NoneLeft.suffix (a := t :: (mid ++ [opening])) (by simpa using hno) (at_mark (Or.inr (Or.inl ho)) (t :: mid))
      exact h1.prefix
    · exact Spec.NoneLeft.suffix (a := t :: (mid ++ opening :: (inner ++ [closing]))) (by simpa using hno)
        (by have := at_mark (Or.inr (Or.inr hc)) (t :: (mid ++ opening :: inner)); simpa using this)
  | @incl ctx t mid args texts semi l ds toks hm hi hinc ht hw htx hs hok hn hl hf _ ih =>
    intro hno
    have := hno [] t mid args texts semi _ rfl atStatement_nil ht hinc hw hs
    rw [hn] at this
    exact absurd (Option.some.inj this) hl

end Verif
