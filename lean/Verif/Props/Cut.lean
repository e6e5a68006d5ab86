import Verif.Proofs.Cut
import Verif.Proofs.Inline
import Verif.Props.Grammar
import Verif.Props.Outcome
import Verif.Props.Ex
/-!
# C95: a file that was cut off
-/
namespace Verif
open Spec

/-- C95.  The tokens of a text that was cut off are those of the whole text up to the cut; the token at the cut, if there is one, is shorter than in the whole text; if the cut is in a block,
the last token says so. -/
theorem C95_tokens (a b : Str) : Cut (lex a) (lex (a ++ b)) := lex_cut a b

example : Cut (lex c!"http{ser") (lex c!"http{server{}}") ∧ lex c!"http{ser" =
    [⟨c!"http", 1, false, none⟩, ⟨c!"{", 1, false, none⟩, ⟨c!"ser", 1, false, none⟩, ⟨[], 1, false, some (lexError c!"unexpected end of file, expecting \"}\"" 1)⟩] :=
  ⟨C95_tokens c!"http{ser" c!"ver{}}", by decide +kernel⟩

/-! ## The tokens around a cut -/

/-- A mark is not cut. -/
theorem Spec.Cut.mark {x w : List Tok} (h : Cut x w) : ∀ {p b : List Tok} {u : Tok}, (Mark u c!";" ∨ Mark u c!"{" ∨ Mark u c!"}") → x = p ++ u :: b →
    ∃ b', w = p ++ u :: b' ∧ Cut b b' := by
  have noE : ∀ {e u : Tok}, Unclosed e → (Mark u c!";" ∨ Mark u c!"{" ∨ Mark u c!"}") → e ≠ u := by
    rintro e u ⟨h1, -⟩ hu rfl
    rcases hu with ⟨-, h⟩ | ⟨-, h⟩ | ⟨-, h⟩ <;> rw [h1] at h <;> cases h
  have noB : ∀ {t t' u : Tok}, Begins t t' → (Mark u c!";" ∨ Mark u c!"{" ∨ Mark u c!"}") → t ≠ u := by
    rintro t t' u hb hu rfl
    rcases hu with h | h | h
    · exact hb.noMark.2.2 h
    · exact hb.noMark.1 h
    · exact hb.noMark.2.1 h
  induction h with
  | @same t x w h ih =>
    intro p b u hu e
    cases p with
    | nil => cases e; exact ⟨w, rfl, h⟩
    | cons t' p =>
      simp only [List.cons_append, List.cons.injEq] at e
      obtain ⟨rfl, e⟩ := e
      obtain ⟨b', h1, h2⟩ := ih hu e
      exact ⟨b', by rw [h1]; rfl, h2⟩
  | between => intro p b u hu e; simp at e
  | betweenOpen he =>
    intro p b u hu e
    cases p with
    | nil => cases e; exact absurd rfl (noE he hu)
    | cons t' p => simp at e
  | within hb =>
    intro p b u hu e
    cases p with
    | nil => cases e; exact absurd rfl (noB hb hu)
    | cons t' p => simp at e
  | withinOpen hb he =>
    intro p b u hu e
    cases p with
    | nil => cases e; exact absurd rfl (noB hb hu)
    | cons t' p =>
      cases p with
      | nil => cases e; exact absurd rfl (noE he hu)
      | cons t' p => simp at e

theorem Spec.Cut.starts {x w : List Tok} (h : Cut x w) (hw : StartsWithWord w) : StartsWithWord x := by
  intro cs t rest e hcs hm
  have hm' : Mark t c!";" ∨ Mark t c!"{" ∨ Mark t c!"}" := by
    rcases hm with h | h | h
    · exact .inr (.inl h)
    · exact .inr (.inr h)
    · exact .inl h
  obtain ⟨b', e', -⟩ := h.mark hm' e
  exact hw cs t b' e' hcs hm

theorem Spec.Cut.ends {x w : List Tok} (h : Cut x w) (hw : StatementsEnd w) : StatementsEnd x := by
  intro a t cs u b e hcs hu
  obtain ⟨b', e', -⟩ := h.mark (p := a ++ t :: cs) (u := u) (b := b) (.inr (.inr hu)) (by rw [e]; simp)
  exact hw a t cs u b' (by rw [e']; simp) hcs hu

theorem Spec.Unclosed.error {e : Tok} (h : Unclosed e) : e.error ≠ none := by
  obtain ⟨-, -, pe, h, -⟩ := h
  rw [h]
  simp

theorem Spec.Unclosed.word {e : Tok} (h : Unclosed e) : WordTok e := by
  obtain ⟨h1, -⟩ := h
  refine ⟨?_, ?_, ?_, ?_⟩
  · rintro text ⟨-, h⟩; rw [h1] at h; cases h
  · rintro ⟨-, h⟩; rw [h1] at h; cases h
  · rintro ⟨-, h⟩; rw [h1] at h; cases h
  · rintro ⟨-, h⟩; rw [h1] at h; cases h

theorem Spec.Begins.kind {t t' : Tok} (h : Begins t t') : WordTok t ∨ ∃ text, CommentTok t text := by
  by_cases hc : ∃ text, CommentTok t text
  · exact .inr hc
  · exact .inl ⟨fun text hx => hc ⟨text, hx⟩, h.noMark.1, h.noMark.2.1, h.noMark.2.2⟩

/-- A cut without a missing brace. -/
theorem Spec.Cut.noError {x w : List Tok} (h : Cut x w) (he : ∀ t ∈ x, t.error = none) :
    (∃ y, w = x ++ y) ∨ ∃ before t t' y, x = before ++ [t] ∧ w = before ++ t' :: y ∧ Begins t t' := by
  induction h with
  | @same t x w _ ih =>
    rcases ih (fun t h => he t (.tail _ h)) with ⟨y, rfl⟩ | ⟨before, u, u', y, rfl, rfl, h⟩
    · exact .inl ⟨y, rfl⟩
    · exact .inr ⟨t :: before, u, u', y, rfl, rfl, h⟩
  | @between w => exact .inl ⟨w, rfl⟩
  | betweenOpen h => exact absurd (he _ (.head _)) h.error
  | within h => exact .inr ⟨[], _, _, _, rfl, rfl, h⟩
  | withinOpen _ h => exact absurd (he _ (.tail _ (.head _))) h.error

/-! ## Trees -/

/-- A block has one end. -/
theorem Spec.Shape.split {inner : List Tok} (h : Shape inner) : ∀ {inner' rest rest' : List Tok} {cl cl' : Tok}, Shape inner' → Mark cl c!"}" → Mark cl' c!"}" →
    inner ++ cl :: rest = inner' ++ cl' :: rest' → inner = inner' ∧ cl = cl' ∧ rest = rest' := by
  have closeWord : ∀ {t : Tok}, Mark t c!"}" → ¬ WordTok t := fun hm hw => hw.2.2.1 hm
  have closeComment : ∀ {t : Tok} {text : Str}, Mark t c!"}" → ¬ CommentTok t text := fun hm => mark_not_comment (.inr (.inr hm))
  have semiOpen : ∀ {t : Tok}, Mark t c!";" → ¬ Mark t c!"{" := by
    rintro t ⟨-, h⟩ ⟨-, h'⟩
    rw [h] at h'
    cases h'
  induction h with
  | nil =>
    intro inner' rest rest' cl cl' h' hc hc' e
    cases h' with
    | nil => cases e; exact ⟨rfl, rfl, rfl⟩
    | comment h1 _ => cases e; exact absurd h1 (closeComment hc)
    | simple h1 => cases e; exact absurd h1 (closeWord hc)
    | block h1 => cases e; exact absurd h1 (closeWord hc)
  | comment h1 _ ih =>
    intro inner' rest rest' cl cl' h' hc hc' e
    cases h' with
    | nil => cases e; exact absurd h1 (closeComment hc')
    | comment _ h2 =>
      simp only [List.cons_append, List.cons.injEq] at e
      obtain ⟨rfl, e⟩ := e
      obtain ⟨rfl, rfl, rfl⟩ := ih h2 hc hc' e
      exact ⟨rfl, rfl, rfl⟩
    | simple hw => obtain ⟨rfl, -⟩ := List.cons.inj e; exact absurd h1 (hw.1 _)
    | block hw => obtain ⟨rfl, -⟩ := List.cons.inj e; exact absurd h1 (hw.1 _)
  | simple hw hws hs _ ih =>
    intro inner' rest rest' cl cl' h' hc hc' e
    cases h' with
    | nil => cases e; exact absurd hw (closeWord hc')
    | comment h2 _ => obtain ⟨rfl, -⟩ := List.cons.inj e; exact absurd h2 (hw.1 _)
    | simple _ hws' hs' h2 =>
      simp only [List.cons_append, List.append_assoc, List.cons.injEq] at e
      obtain ⟨rfl, e⟩ := e
      obtain ⟨rfl, rfl, rfl, rfl, e2⟩ := hws.split hws' (.inl hs) (.inl hs') e
      obtain ⟨rfl, rfl, rfl⟩ := ih h2 hc hc' e2
      exact ⟨rfl, rfl, rfl⟩
    | block _ hws' ho' =>
      simp only [List.cons_append, List.append_assoc, List.cons.injEq] at e
      obtain ⟨rfl, e⟩ := e
      obtain ⟨rfl, rfl, rfl, rfl, e2⟩ := hws.split hws' (.inl hs) (.inr (.inl ho')) e
      exact absurd ho' (semiOpen hs)
  | block hw hws ho _ hcl _ ih1 ih2 =>
    intro inner' rest rest' cl cl' h' hc hc' e
    cases h' with
    | nil => cases e; exact absurd hw (closeWord hc')
    | comment h2 _ => obtain ⟨rfl, -⟩ := List.cons.inj e; exact absurd h2 (hw.1 _)
    | simple _ hws' hs' =>
      simp only [List.cons_append, List.append_assoc, List.cons.injEq] at e
      obtain ⟨rfl, e⟩ := e
      obtain ⟨rfl, rfl, rfl, rfl, e2⟩ := hws.split hws' (.inr (.inl ho)) (.inl hs') e
      exact absurd ho (semiOpen hs')
    | block _ hws' ho' h1 hcl' h2 =>
      simp only [List.cons_append, List.append_assoc, List.cons.injEq] at e
      obtain ⟨rfl, e⟩ := e
      obtain ⟨rfl, rfl, rfl, rfl, e2⟩ := hws.split hws' (.inr (.inl ho)) (.inr (.inl ho')) e
      obtain ⟨rfl, rfl, e3⟩ := ih1 h1 hcl hcl' e2
      obtain ⟨rfl, rfl, rfl⟩ := ih2 h2 hc hc' e3
      exact ⟨rfl, rfl, rfl⟩

/-- The last token of statements. -/
theorem Spec.Shape.lastTok {z : List Tok} (h : Shape z) : ∀ {before : List Tok} {t : Tok}, z = before ++ [t] →
    ((∃ text, CommentTok t text) ∧ Shape before) ∨ Mark t c!";" ∨ Mark t c!"}" := by
  have peel : ∀ {p toks before : List Tok} {m t : Tok}, p ++ m :: toks = before ++ [t] → (toks = [] ∧ m = t) ∨ ∃ b, before = p ++ m :: b ∧ toks = b ++ [t] := by
    intro p toks before m t e
    rcases List.eq_nil_or_concat toks with rfl | ⟨b, u, rfl⟩
    · left
      have := congrArg List.getLast? e
      simp at this
      exact ⟨rfl, this⟩
    · right
      rw [List.concat_eq_append] at e ⊢
      have e' : (p ++ m :: b) ++ [u] = before ++ [t] := by rw [← e]; simp
      obtain ⟨h1, h2⟩ := List.append_inj' e' rfl
      cases h2
      exact ⟨b, h1.symm, rfl⟩
  induction h with
  | nil => intro before t e; simp at e
  | @comment t0 text toks hc _ ih =>
    intro before t e
    rcases peel (p := []) e with ⟨rfl, rfl⟩ | ⟨b, rfl, rfl⟩
    · left
      cases before with
      | nil => exact ⟨⟨_, hc⟩, .nil⟩
      | cons x l => simp at e
    · rcases ih rfl with ⟨h1, h2⟩ | h
      · exact .inl ⟨h1, .comment hc h2⟩
      · exact .inr h
  | @simple t0 mid args texts semi toks hw hws hs _ ih =>
    intro before t e
    rcases peel (p := t0 :: mid) e with ⟨rfl, rfl⟩ | ⟨b, rfl, rfl⟩
    · exact .inr (.inl hs)
    · rcases ih rfl with ⟨h1, h2⟩ | h
      · exact .inl ⟨h1, .simple hw hws hs h2⟩
      · exact .inr h
  | @block t0 mid args texts opening inner closing toks hw hws ho hin hcl _ _ ih =>
    intro before t e
    rcases peel (p := t0 :: (mid ++ opening :: inner)) (m := closing) (toks := toks) (by rw [← e]; simp) with ⟨rfl, rfl⟩ | ⟨b, rfl, rfl⟩
    · exact .inr (.inr hcl)
    · rcases ih rfl with ⟨h1, h2⟩ | h
      · refine .inl ⟨h1, ?_⟩
        have := Shape.block hw hws ho hin hcl h2
        simpa using this
      · exact .inr h

/-- Statements that are followed by others. -/
theorem Spec.Conf.divide {r : Rules} {ctx : List Str} {x : List Tok} (hx : Shape x) : ∀ {y : List Tok} {ds : List Directive}, Conf r ctx ds (x ++ y) →
    ∃ ds1 ds2, ds = ds1 ++ ds2 ∧ Conf r ctx ds1 x ∧ Conf r ctx ds2 y := by
  have semiOpen : ∀ {t : Tok}, Mark t c!";" → ¬ Mark t c!"{" := by
    rintro t ⟨-, h⟩ ⟨-, h'⟩
    rw [h] at h'
    cases h'
  induction hx with
  | nil => intro y ds h; exact ⟨[], ds, rfl, .nil, h⟩
  | @comment t text toks hc _ ih =>
    intro y ds h
    generalize ew : t :: toks ++ y = w at h
    cases h with
    | nil => cases ew
    | comment h1 h2 h3 =>
      cases ew
      obtain ⟨d1, d2, rfl, k1, k2⟩ := ih h3
      exact ⟨_ :: d1, d2, rfl, .comment h1 h2 k1, k2⟩
    | skip h1 h2 h3 =>
      cases ew
      obtain ⟨d1, d2, rfl, k1, k2⟩ := ih h3
      exact ⟨d1, d2, rfl, .skip h1 h2 k1, k2⟩
    | param _ hw => obtain ⟨rfl, -⟩ := List.cons.inj ew; exact absurd hc (hw.1 _)
    | ignored _ _ hw => obtain ⟨rfl, -⟩ := List.cons.inj ew; exact absurd hc (hw.1 _)
    | ignoredBlock _ _ hw => obtain ⟨rfl, -⟩ := List.cons.inj ew; exact absurd hc (hw.1 _)
    | simple _ _ hw => obtain ⟨rfl, -⟩ := List.cons.inj ew; exact absurd hc (hw.1 _)
    | block _ _ hw => obtain ⟨rfl, -⟩ := List.cons.inj ew; exact absurd hc (hw.1 _)
  | @simple t mid args texts semi toks hw hws hs _ ih =>
    intro y ds h
    generalize ew : t :: (mid ++ semi :: toks) ++ y = w at h
    simp only [List.cons_append, List.append_assoc] at ew
    cases h with
    | nil => cases ew
    | comment h1 h2 h3 => obtain ⟨rfl, -⟩ := List.cons.inj ew; exact absurd h2 (hw.1 _)
    | skip h1 h2 h3 => obtain ⟨rfl, -⟩ := List.cons.inj ew; exact absurd h2 (hw.1 _)
    | param h1 h2 h3 h4 h5 h6 =>
      simp only [List.cons.injEq] at ew
      obtain ⟨rfl, e⟩ := ew
      obtain ⟨rfl, rfl, rfl, rfl, rfl⟩ := hws.split h3 (.inl hs) (.inl h4) e
      obtain ⟨d1, d2, rfl, k1, k2⟩ := ih h6
      exact ⟨_ :: d1, d2, rfl, .param h1 h2 h3 h4 h5 k1, k2⟩
    | ignored h1 h2 h3 h4 h5 h6 =>
      simp only [List.cons.injEq] at ew
      obtain ⟨rfl, e⟩ := ew
      obtain ⟨rfl, rfl, rfl, rfl, rfl⟩ := hws.split h4 (.inl hs) (.inl h5) e
      obtain ⟨d1, d2, rfl, k1, k2⟩ := ih h6
      exact ⟨d1, d2, rfl, .ignored h1 h2 h3 h4 h5 k1, k2⟩
    | ignoredBlock h1 h2 h3 h4 h5 =>
      simp only [List.cons.injEq] at ew
      obtain ⟨rfl, e⟩ := ew
      obtain ⟨rfl, rfl, rfl, rfl, -⟩ := hws.split h4 (.inl hs) (.inr (.inl h5)) e
      exact absurd h5 (semiOpen hs)
    | simple h1 h2 h3 h4 h5 h6 h7 h8 h9 =>
      simp only [List.cons.injEq] at ew
      obtain ⟨rfl, e⟩ := ew
      obtain ⟨rfl, rfl, rfl, rfl, rfl⟩ := hws.split h4 (.inl hs) (.inl h5) e
      obtain ⟨d1, d2, rfl, k1, k2⟩ := ih h9
      exact ⟨_ :: (_ ++ d1), d2, by simp, .simple h1 h2 h3 h4 h5 h6 h7 h8 k1, k2⟩
    | block h1 h2 h3 h4 h5 =>
      simp only [List.cons.injEq] at ew
      obtain ⟨rfl, e⟩ := ew
      obtain ⟨rfl, rfl, rfl, rfl, -⟩ := hws.split h4 (.inl hs) (.inr (.inl h5)) e
      exact absurd h5 (semiOpen hs)
  | @block t mid args texts opening inner closing toks hw hws ho hin hcl _ _ ih =>
    intro y ds h
    generalize ew : t :: (mid ++ opening :: (inner ++ closing :: toks)) ++ y = w at h
    simp only [List.cons_append, List.append_assoc] at ew
    cases h with
    | nil => cases ew
    | comment h1 h2 h3 => obtain ⟨rfl, -⟩ := List.cons.inj ew; exact absurd h2 (hw.1 _)
    | skip h1 h2 h3 => obtain ⟨rfl, -⟩ := List.cons.inj ew; exact absurd h2 (hw.1 _)
    | param h1 h2 h3 h4 h5 h6 =>
      simp only [List.cons.injEq] at ew
      obtain ⟨rfl, e⟩ := ew
      obtain ⟨rfl, rfl, rfl, rfl, -⟩ := hws.split h3 (.inr (.inl ho)) (.inl h4) e
      exact absurd ho (semiOpen h4)
    | ignored h1 h2 h3 h4 h5 h6 =>
      simp only [List.cons.injEq] at ew
      obtain ⟨rfl, e⟩ := ew
      obtain ⟨rfl, rfl, rfl, rfl, -⟩ := hws.split h4 (.inr (.inl ho)) (.inl h5) e
      exact absurd ho (semiOpen h5)
    | ignoredBlock h1 h2 h3 h4 h5 h6 h7 h8 =>
      simp only [List.cons.injEq] at ew
      obtain ⟨rfl, e⟩ := ew
      obtain ⟨rfl, rfl, rfl, rfl, e2⟩ := hws.split h4 (.inr (.inl ho)) (.inr (.inl h5)) e
      obtain ⟨rfl, rfl, rfl⟩ := hin.split h6 hcl h7 e2
      obtain ⟨d1, d2, rfl, k1, k2⟩ := ih h8
      exact ⟨d1, d2, rfl, .ignoredBlock h1 h2 h3 h4 h5 h6 h7 k1, k2⟩
    | simple h1 h2 h3 h4 h5 =>
      simp only [List.cons.injEq] at ew
      obtain ⟨rfl, e⟩ := ew
      obtain ⟨rfl, rfl, rfl, rfl, -⟩ := hws.split h4 (.inr (.inl ho)) (.inl h5) e
      exact absurd ho (semiOpen h5)
    | block h1 h2 h3 h4 h5 h6 h7 h8 hb h9 h10 =>
      simp only [List.cons.injEq] at ew
      obtain ⟨rfl, e⟩ := ew
      obtain ⟨rfl, rfl, rfl, rfl, e2⟩ := hws.split h4 (.inr (.inl ho)) (.inr (.inl h5)) e
      obtain ⟨rfl, rfl, rfl⟩ := hin.split hb.shape hcl h9 e2
      obtain ⟨d1, d2, rfl, k1, k2⟩ := ih h10
      exact ⟨_ :: (_ ++ d1), d2, by simp, .block h1 h2 h3 h4 h5 h6 h7 h8 hb h9 k1, k2⟩

theorem Spec.Conf.append {r : Rules} {ctx : List Str} {ds1 : List Directive} {x : List Tok} (h : Conf r ctx ds1 x) : ∀ {ds2 : List Directive} {y : List Tok}, Conf r ctx ds2 y →
    Conf r ctx (ds1 ++ ds2) (x ++ y) := by
  induction h with
  | nil => exact fun h => h
  | comment h1 h2 _ ih => exact fun h => .comment h1 h2 (ih h)
  | skip h1 h2 _ ih => exact fun h => .skip h1 h2 (ih h)
  | param h1 h2 h3 h4 h5 _ ih =>
    intro ds2 y h
    simp only [List.cons_append, List.append_assoc]
    exact .param h1 h2 h3 h4 h5 (ih h)
  | ignored h1 h2 h3 h4 h5 _ ih =>
    intro ds2 y h
    simp only [List.cons_append, List.append_assoc]
    exact .ignored h1 h2 h3 h4 h5 (ih h)
  | ignoredBlock h1 h2 h3 h4 h5 h6 h7 _ ih =>
    intro ds2 y h
    simp only [List.cons_append, List.append_assoc]
    exact .ignoredBlock h1 h2 h3 h4 h5 h6 h7 (ih h)
  | simple h1 h2 h3 h4 h5 h6 h7 h8 _ ih =>
    intro ds2 y h
    simp only [List.cons_append, List.append_assoc]
    exact .simple h1 h2 h3 h4 h5 h6 h7 h8 (ih h)
  | block h1 h2 h3 h4 h5 h6 h7 h8 hb h9 _ _ ih =>
    intro ds2 y h
    simp only [List.cons_append, List.append_assoc]
    exact .block h1 h2 h3 h4 h5 h6 h7 h8 hb h9 (ih h)

/-- The tree of statements that were cut off. -/
theorem cutTree {o : ParseOptions} {ctx : List Str} {ds ds' : List Directive} {x w : List Tok} (hx : Conf (rulesOf o) ctx ds x) (hw : Conf (rulesOf o) ctx ds' w) (hc : Cut x w)
    (he : ∀ t ∈ x, t.error = none) : CutTree ds ds' := by
  rcases hc.noError he with ⟨y, rfl⟩ | ⟨before, t, t', y, rfl, rfl, hb⟩
  · obtain ⟨d1, d2, rfl, k1, -⟩ := hw.divide hx.shape
    rw [C70_unique he hx k1]
    exact .inl (List.prefix_append _ _)
  · rcases hx.shape.lastTok rfl with ⟨⟨text, hct⟩, hsh⟩ | hm | hm
    · obtain ⟨d1, d2, rfl, k1, k2⟩ := hx.divide hsh
      obtain ⟨e1, e2, rfl, j1, j2⟩ := hw.divide hsh
      have heb : ∀ t ∈ before, t.error = none := fun t h => he t (by simp [h])
      obtain rfl := C70_unique heb k1 j1
      generalize el : [t] = l at k2
      cases k2 with
      | nil => cases el
      | param _ hw' => obtain ⟨rfl, -⟩ := List.cons.inj el; exact absurd hct (hw'.1 _)
      | ignored _ _ hw' => obtain ⟨rfl, -⟩ := List.cons.inj el; exact absurd hct (hw'.1 _)
      | ignoredBlock _ _ hw' => obtain ⟨rfl, -⟩ := List.cons.inj el; exact absurd hct (hw'.1 _)
      | simple _ _ hw' => obtain ⟨rfl, -⟩ := List.cons.inj el; exact absurd hct (hw'.1 _)
      | block _ _ hw' => obtain ⟨rfl, -⟩ := List.cons.inj el; exact absurd hct (hw'.1 _)
      | @comment _ _ text1 _ _ h1 h2 h3 =>
        cases el
        cases h3
        cases j2 with
        | @comment _ _ text2 ds2 _ _ h5 h6 =>
          refine .inr ⟨d1, { directive := c!"#", line := t'.line, args := [], comment := some text2 }, ds2, text1, text2, ?_, rfl, rfl, rfl, ?_⟩
          · rw [hb.line]
          · have hv := hb.value
            rw [h2.2, h5.2] at hv
            simpa using hv
        | skip h4 => rw [h1] at h4; cases h4
        | param _ hw' => obtain ⟨x, hx⟩ := hb.sameKind.mp ⟨_, hct⟩; exact absurd hx (hw'.1 _)
        | ignored _ _ hw' => obtain ⟨x, hx⟩ := hb.sameKind.mp ⟨_, hct⟩; exact absurd hx (hw'.1 _)
        | ignoredBlock _ _ hw' => obtain ⟨x, hx⟩ := hb.sameKind.mp ⟨_, hct⟩; exact absurd hx (hw'.1 _)
        | simple _ _ hw' => obtain ⟨x, hx⟩ := hb.sameKind.mp ⟨_, hct⟩; exact absurd hx (hw'.1 _)
        | block _ _ hw' => obtain ⟨x, hx⟩ := hb.sameKind.mp ⟨_, hct⟩; exact absurd hx (hw'.1 _)
      | skip h1 h2 h3 =>
        cases el
        cases h3
        rw [List.append_nil]
        exact .inl (List.prefix_append _ _)
    · exact absurd hm hb.noMark.2.2
    · exact absurd hm hb.noMark.2.1

/-! ## What becomes of tokens that were cut off -/

/-- All is kept, or the only error is the one that ends the file. -/
def EndsWell (r : Rules) (ctx : List Str) (x : List Tok) : Prop := (∃ l, Breaks r ctx [] (some l) x) ∨ ∃ ds, Keeps r ctx ds [] x []

theorem EndsWell.on {r : Rules} {ctx : List Str} {t : Tok} {toks toks' : List Tok} {ds : List Directive} (hs : Statement r ctx t toks (.on ds [] toks'))
    (h : EndsWell r ctx toks') : EndsWell r ctx (t :: toks) := by
  rcases h with ⟨l, h⟩ | ⟨ds', h⟩
  · exact .inl ⟨l, .on hs h⟩
  · exact .inr ⟨_, .on hs h⟩

theorem EndsWell.enter {r : Rules} {ctx : List Str} {t : Tok} {toks toks' : List Tok} {d : Directive} {tr : List Directive}
    (hs : Statement r ctx t toks (.enter d tr toks')) (h : EndsWell r (enter ctx d.directive) toks') : EndsWell r ctx (t :: toks) := by
  rcases h with ⟨l, h⟩ | ⟨ds', h⟩
  · exact .inl ⟨l, .inside hs h⟩
  · exact .inr ⟨_, .block hs h .eof⟩

theorem EndsWell.after {r : Rules} {ctx : List Str} {t : Tok} {toks toks' toks2 : List Tok} {d : Directive} {tr b : List Directive}
    (hs : Statement r ctx t toks (.enter d tr toks')) (hk : Keeps r (Spec.enter ctx d.directive) b [] toks' toks2) (h : EndsWell r ctx toks2) :
    EndsWell r ctx (t :: toks) := by
  rcases h with ⟨l, h⟩ | ⟨ds', h⟩
  · exact .inl ⟨l, .after hs hk h⟩
  · exact .inr ⟨_, .block hs hk h⟩

theorem headTok {t : Tok} (he : t.error = none) (h : WordTok t) : HeadTok t := ⟨he, h.2.2.1, h.1⟩

/-- Statements before the end. -/
theorem Spec.Conf.endsWell {r : Rules} {ctx : List Str} {ds : List Directive} {v : List Tok} (h : Conf r ctx ds v) (hi : r.ignore = []) :
    ∀ {x : List Tok}, (∀ t ∈ v, t.error = none) → EndsWell r ctx x → EndsWell r ctx (v ++ x) := by
  induction h with
  | nil => exact fun _ h => h
  | comment _ h2 _ ih => exact fun he h => .on (.comment (he _ (.head _)) h2) (ih (fun t h => he t (.tail _ h)) h)
  | skip _ h2 _ ih => exact fun he h => .on (.comment (he _ (.head _)) h2) (ih (fun t h => he t (.tail _ h)) h)
  | param h1 h2 h3 h4 h5 _ ih =>
    intro x he h
    simp only [List.cons_append, List.append_assoc]
    exact .on (.param (headTok (he _ (.head _)) h2) h1 h3 h4 h5) (ih (fun t h => he t (by simp [h])) h)
  | ignored _ h => rw [hi] at h; cases h
  | ignoredBlock _ h => rw [hi] at h; cases h
  | simple h1 h2 h3 h4 h5 h6 h7 h8 _ ih =>
    intro x he h
    simp only [List.cons_append, List.append_assoc]
    exact .on (.simple (headTok (he _ (.head _)) h3) h1 h2 h4 (.inl h5) (by rw [h5.2]; exact h6) h7 (by rw [h5.2]; decide)) (ih (fun t h => he t (by simp [h])) h)
  | @block ctx t mid args args' texts opening b inner closing ds toks h1 h2 h3 h4 h5 h6 h7 h8 hb h9 _ _ ih =>
    intro x he h
    simp only [List.cons_append, List.append_assoc]
    exact .after (.block (headTok (he _ (.head _)) h3) h1 h2 h4 h5 h6 h7)
      (C80_recover hb.recover (closing :: (toks ++ x)) (toks ++ x) (fun y hy => he y (by simp [hy])) (.inr ⟨closing, h9, he closing (by simp), rfl⟩))
      (ih (fun t h => he t (by simp [h])) h)

/-- The cut is not before the first token. -/
theorem Spec.Cut.first {x w : List Tok} {t : Tok} (h : Cut x (t :: w)) (r : Rules) (ctx : List Str) : (∃ x', x = t :: x' ∧ Cut x' w) ∨ EndsWell r ctx x := by
  cases h with
  | same h => exact .inl ⟨_, rfl, h⟩
  | between => exact .inr (.inr ⟨_, .eof⟩)
  | betweenOpen h => exact .inr (.inl ⟨_, .broken (.error h.error)⟩)
  | within h =>
    right
    rcases h.kind with hw | ⟨text, hc⟩
    · exact .inl ⟨_, .broken (.premature (headTok h.noError.1 hw) .nil)⟩
    · exact .on (.comment h.noError.1 hc) (.inr ⟨_, .eof⟩)
  | withinOpen h he =>
    right
    rcases h.kind with hw | ⟨text, hc⟩
    · exact .inl ⟨_, .broken (.premature (headTok h.noError.1 hw) (.word he.word .nil))⟩
    · exact .on (.comment h.noError.1 hc) (.inl ⟨_, .broken (.error he.error)⟩)

/-- A cut among the arguments. -/
theorem Spec.Words.cut {mid : List Tok} {args texts : List Str} (h : Words mid args texts) : ∀ {y rest : List Tok} {m : Tok}, Cut y (mid ++ m :: rest) →
    (∃ y', y = mid ++ m :: y' ∧ Cut y' rest) ∨ ∃ args texts, Words y args texts := by
  have short : ∀ {y w : List Tok} {m : Tok}, Cut y (m :: w) → (∃ y', y = m :: y' ∧ Cut y' w) ∨ ∃ args texts, Words y args texts := by
    intro y w m h
    cases h with
    | same h => exact .inl ⟨_, rfl, h⟩
    | between => exact .inr ⟨_, _, .nil⟩
    | betweenOpen h => exact .inr ⟨_, _, .word h.word .nil⟩
    | within h =>
      rcases h.kind with hw | ⟨text, hc⟩
      · exact .inr ⟨_, _, .word hw .nil⟩
      · exact .inr ⟨_, _, .comment hc .nil⟩
    | withinOpen h he =>
      rcases h.kind with hw | ⟨text, hc⟩
      · exact .inr ⟨_, _, .word hw (.word he.word .nil)⟩
      · exact .inr ⟨_, _, .comment hc (.word he.word .nil)⟩
  induction h with
  | nil => exact short
  | word hw _ ih =>
    intro y rest m h
    rcases short h with ⟨y', rfl, g1⟩ | g1
    · rcases ih g1 with ⟨y', rfl, g2⟩ | ⟨_, _, g2⟩
      · exact .inl ⟨y', rfl, g2⟩
      · exact .inr ⟨_, _, .word hw g2⟩
    · exact .inr g1
  | comment hc _ ih =>
    intro y rest m h
    rcases short h with ⟨y', rfl, g1⟩ | g1
    · rcases ih g1 with ⟨y', rfl, g2⟩ | ⟨_, _, g2⟩
      · exact .inl ⟨y', rfl, g2⟩
      · exact .inr ⟨_, _, .comment hc g2⟩
    · exact .inr g1

/-- A cut among statements, or after them. -/
theorem Spec.Conf.cut {r : Rules} {ctx : List Str} {ds : List Directive} {v : List Tok} (h : Conf r ctx ds v) (hi : r.ignore = []) :
    ∀ {x z : List Tok}, (∀ t ∈ v, t.error = none) → Cut x (v ++ z) → (∃ x', x = v ++ x' ∧ Cut x' z) ∨ EndsWell r ctx x := by
  induction h with
  | nil => exact fun _ h => .inl ⟨_, rfl, h⟩
  | comment _ h2 _ ih =>
    intro x z he h
    rcases h.first r _ with ⟨x', rfl, g1⟩ | g1
    · rcases ih (fun t h => he t (.tail _ h)) g1 with ⟨x', rfl, g2⟩ | g2
      · exact .inl ⟨x', rfl, g2⟩
      · exact .inr (.on (.comment (he _ (.head _)) h2) g2)
    · exact .inr g1
  | skip _ h2 _ ih =>
    intro x z he h
    rcases h.first r _ with ⟨x', rfl, g1⟩ | g1
    · rcases ih (fun t h => he t (.tail _ h)) g1 with ⟨x', rfl, g2⟩ | g2
      · exact .inl ⟨x', rfl, g2⟩
      · exact .inr (.on (.comment (he _ (.head _)) h2) g2)
    · exact .inr g1
  | param h1 h2 h3 h4 h5 _ ih =>
    intro x z he h
    simp only [List.cons_append, List.append_assoc] at h ⊢
    have hh := headTok (he _ (.head _)) h2
    rcases h.first r _ with ⟨x', rfl, g1⟩ | g1
    · rcases h3.cut g1 with ⟨x', rfl, g2⟩ | ⟨_, _, g2⟩
      · rcases ih (fun t h => he t (by simp [h])) g2 with ⟨x', rfl, g3⟩ | g3
        · exact .inl ⟨x', rfl, g3⟩
        · exact .inr (.on (.param hh h1 h3 h4 h5) g3)
      · exact .inr (.inl ⟨_, .broken (.premature hh g2)⟩)
    · exact .inr g1
  | ignored _ h => rw [hi] at h; cases h
  | ignoredBlock _ h => rw [hi] at h; cases h
  | simple h1 h2 h3 h4 h5 h6 h7 h8 _ ih =>
    intro x z he h
    simp only [List.cons_append, List.append_assoc] at h ⊢
    have hh := headTok (he _ (.head _)) h3
    rcases h.first r _ with ⟨x', rfl, g1⟩ | g1
    · rcases h4.cut g1 with ⟨x', rfl, g2⟩ | ⟨_, _, g2⟩
      · rcases ih (fun t h => he t (by simp [h])) g2 with ⟨x', rfl, g3⟩ | g3
        · exact .inl ⟨x', rfl, g3⟩
        · exact .inr (.on (.simple hh h1 h2 h4 (.inl h5) (by rw [h5.2]; exact h6) h7 (by rw [h5.2]; decide)) g3)
      · exact .inr (.inl ⟨_, .broken (.premature hh g2)⟩)
    · exact .inr g1
  | @block ctx t mid args args' texts opening b inner closing ds toks h1 h2 h3 h4 h5 h6 h7 h8 hb h9 _ ihb ih =>
    intro x z he h
    simp only [List.cons_append, List.append_assoc] at h ⊢
    have hh := headTok (he _ (.head _)) h3
    have hin : ∀ t ∈ inner, t.error = none := fun t h => he t (by simp [h])
    rcases h.first r _ with ⟨x', rfl, g1⟩ | g1
    · rcases h4.cut g1 with ⟨x', rfl, g2⟩ | ⟨_, _, g2⟩
      · rcases ihb hin g2 with ⟨x', rfl, g3⟩ | g3
        · rcases g3.first r (enter ctx t.value) with ⟨x', rfl, g4⟩ | g4
          · rcases ih (fun t h => he t (by simp [h])) g4 with ⟨x', rfl, g5⟩ | g5
            · exact .inl ⟨x', rfl, g5⟩
            · exact .inr (.after (.block hh h1 h2 h4 h5 h6 h7)
                (C80_recover hb.recover (closing :: x') x' hin (.inr ⟨closing, h9, he closing (by simp), rfl⟩)) g5)
          · exact .inr (.enter (.block hh h1 h2 h4 h5 h6 h7) (hb.endsWell hi hin g4))
        · exact .inr (.enter (.block hh h1 h2 h4 h5 h6 h7) g3)
      · exact .inr (.inl ⟨_, .broken (.premature hh g2)⟩)
    · exact .inr g1

theorem cut_endsWell {r : Rules} {ctx : List Str} {ds : List Directive} {v x : List Tok} (h : Conf r ctx ds v) (hi : r.ignore = []) (he : ∀ t ∈ v, t.error = none)
    (hc : Cut x v) : EndsWell r ctx x := by
  rcases h.cut hi (x := x) (z := []) he (by rw [List.append_nil]; exact hc) with ⟨x', rfl, h'⟩ | h'
  · refine h.endsWell hi he ?_
    cases h' with
    | between => exact .inr ⟨_, .eof⟩
    | betweenOpen h => exact .inl ⟨_, .broken (.error h.error)⟩
  · exact h'

section
variable {env env' : Env} {fuel fuel' : Nat} {filename : Str} {o : ParseOptions} {cut whole : FileData} {ds : List Directive}

/-- A file that is accepted, what is needed of its tokens, and the same file cut off somewhere. -/
structure CutOff (env env' : Env) (fuel' : Nat) (filename : Str) (o : ParseOptions) (cut whole : FileData) (ds : List Directive) : Prop where
  lexers : o.lexers = []
  ignore : o.ignoreDirectives = []
  one : OneFile env filename o cut
  oneWhole : OneFile env' filename o whole
  enough : 2 ≤ fuel'
  cutOff : cut.runes <+: whole.runes
  starts : StartsWithWord (lex whole.runes)
  ends : StatementsEnd (lex whole.runes)
  accepted : Parse env' fuel' filename o = .ok (okPayload [(filename, ds)])

theorem CutOff.toks (h : CutOff env env' fuel' filename o cut whole ds) : Cut (lex cut.runes) (lex whole.runes) := by
  obtain ⟨rest, e⟩ := h.cutOff
  rw [← e]
  exact lex_cut _ _

theorem CutOff.conf (h : CutOff env env' fuel' filename o cut whole ds) : (∀ t ∈ lex whole.runes, t.error = none) ∧ Conf (rulesOf o) [] ds (lex whole.runes) := by
  have := C70_sound_tree h.oneWhole h.enough (.inr ⟨h.lexers, h.ignore, h.starts, h.ends⟩) h.accepted
  rwa [fileToks_lex h.lexers] at this

/-- C95.  If a file that is accepted is cut off anywhere, it is still accepted, and its tree is the beginning of the tree of the whole file, where the last comment may be shorter;
or it is not accepted, and then there is one error, in this file, and no tree.  It is never parsed to anything else, and the parser does not crash. -/
theorem C95_cut (h : CutOff env env' fuel' filename o cut whole ds) (hf : 2 ≤ fuel) (hs : o.stopParsingOnError = false) :
    (∃ ds', Parse env fuel filename o = .ok (okPayload [(filename, ds')]) ∧ CutTree ds' ds) ∨
    ∃ p line, Parse env fuel filename o = .ok p ∧ p.config.map (fun c => (c.file, c.status, c.parsed)) = [(filename, c!"failed", [])] ∧
      p.errors.map (fun e => (e.file, e.line)) = [(filename, line)] := by
  obtain ⟨he, hc⟩ := h.conf
  have hx := cut_endsWell hc h.ignore he h.toks
  rw [← fileToks_lex h.lexers] at hx
  rcases hx with ⟨line, hb⟩ | ⟨ds', hk⟩
  · obtain ⟨p, h1, h2, h3, -⟩ := C80_broken h.one hf hs hb
    exact .inr ⟨p, line, h1, h2, h3⟩
  · have hp := C80_ok h.one hf hk
    obtain ⟨he', hc'⟩ := C70_sound_tree h.one hf (.inr ⟨h.lexers, h.ignore, h.toks.starts h.starts, h.toks.ends h.ends⟩) hp
    rw [fileToks_lex h.lexers] at he' hc'
    exact .inl ⟨ds', hp, cutTree hc' hc h.toks he'⟩

/-- C95.  With StopParsingOnError, the same with an error instead of a payload. -/
theorem C95_stop (h : CutOff env env' fuel' filename o cut whole ds) (hf : 2 ≤ fuel) (hs : o.stopParsingOnError = true) :
    (∃ ds', Parse env fuel filename o = .ok (okPayload [(filename, ds')]) ∧ CutTree ds' ds) ∨ ∃ e, Parse env fuel filename o = .err e := by
  obtain ⟨he, hc⟩ := h.conf
  have hx := cut_endsWell hc h.ignore he h.toks
  rw [← fileToks_lex h.lexers] at hx
  rcases hx with ⟨line, hb⟩ | ⟨ds', hk⟩
  · obtain ⟨e, h1, -⟩ := C80_stop_last h.one hf hs hb
    exact .inr ⟨e, h1⟩
  · have hp := C80_ok h.one hf hk
    obtain ⟨he', hc'⟩ := C70_sound_tree h.one hf (.inr ⟨h.lexers, h.ignore, h.toks.starts h.starts, h.toks.ends h.ends⟩) hp
    rw [fileToks_lex h.lexers] at he' hc'
    exact .inl ⟨ds', hp, cutTree hc' hc h.toks he'⟩

/-- C95.  It is accepted just when it is cut between statements, or in a comment between statements, that are not in a block. -/
theorem C95_where (h : CutOff env env' fuel' filename o cut whole ds) (hf : 2 ≤ fuel) :
    (∃ ds', Parse env fuel filename o = .ok (okPayload [(filename, ds')])) ↔ (∀ t ∈ lex cut.runes, t.error = none) ∧ Shape (lex cut.runes) := by
  obtain ⟨-, hc⟩ := h.conf
  constructor
  · rintro ⟨ds', hp⟩
    obtain ⟨he', hc'⟩ := C70_sound_tree h.one hf (.inr ⟨h.lexers, h.ignore, h.toks.starts h.starts, h.toks.ends h.ends⟩) hp
    rw [fileToks_lex h.lexers] at he' hc'
    exact ⟨he', hc'.shape⟩
  · rintro ⟨he, hs⟩
    suffices hx : ∃ ds', Conf (rulesOf o) [] ds' (lex cut.runes) by
      obtain ⟨ds', hx⟩ := hx
      rw [← fileToks_lex h.lexers] at hx he
      exact ⟨ds', C70_complete h.one hf he hx⟩
    rcases h.toks.noError he with ⟨y, e⟩ | ⟨before, t, t', y, e, e', hb⟩
    · rw [e] at hc
      obtain ⟨d1, -, -, k1, -⟩ := hc.divide hs
      exact ⟨d1, k1⟩
    · rcases hs.lastTok e with ⟨⟨text, hct⟩, hsh⟩ | hm | hm
      · rw [e'] at hc
        obtain ⟨d1, -, -, k1, -⟩ := hc.divide hsh
        rw [e]
        cases hpc : (rulesOf o).comments with
        | false => exact ⟨_, k1.append (.skip hpc hct .nil)⟩
        | true => exact ⟨_, k1.append (.comment hpc hct .nil)⟩
      · exact absurd hm hb.noMark.2.2
      · exact absurd hm hb.noMark.2.1

end

/-- A block, a statement and a comment; cut off anywhere, it is accepted with a beginning of the tree or has one error. -/
example : ∀ n : Nat, let o := { exOpts with parseComments := true, singleFile := true }
    let text := c!"http{root /r;}\nb a; #x y"
    let ds := [blk c!"http" 1 [] [dir c!"root" 1 [c!"/r"]], dir c!"b" 2 [c!"a"], ⟨c!"#", 2, [], [], none, none, some c!"x y", false⟩]
    CutOff (exEnv [(c!"/e/n", text.take n)]) (exEnv [(c!"/e/n", text)]) 2 c!"/e/n" o { runes := text.take n } { runes := text } ds := by
  intro n o text ds
  have hl : lex text = [⟨c!"http", 1, false, none⟩, ⟨c!"{", 1, false, none⟩, ⟨c!"root", 1, false, none⟩, ⟨c!"/r", 1, false, none⟩, ⟨c!";", 1, false, none⟩,
      ⟨c!"}", 1, false, none⟩, ⟨c!"b", 2, false, none⟩, ⟨c!"a", 2, false, none⟩, ⟨c!";", 2, false, none⟩, ⟨c!"#x y", 2, false, none⟩] := by decide +kernel
  have hw : ∀ v line, (⟨v, line, false, none⟩ : Tok).isTerm = false ∧ (⟨v, line, false, none⟩ : Tok).isCommentTok = false →
      WordTok ⟨v, line, false, none⟩ := fun _ _ h => wordTok_iff.mpr h
  have hs : Shape (lex text) := by
    rw [hl]
    exact .block (mid := []) (inner := [⟨c!"root", 1, false, none⟩, ⟨c!"/r", 1, false, none⟩, ⟨c!";", 1, false, none⟩]) (hw _ _ (by decide)) .nil ⟨rfl, rfl⟩
      (.simple (mid := [⟨c!"/r", 1, false, none⟩]) (toks := []) (hw _ _ (by decide)) (.word (hw _ _ (by decide)) .nil) ⟨rfl, rfl⟩ .nil) ⟨rfl, rfl⟩
      (.simple (mid := [⟨c!"a", 2, false, none⟩]) (hw _ _ (by decide)) (.word (hw _ _ (by decide)) .nil) ⟨rfl, rfl⟩ (.comment (text := c!"x y") ⟨rfl, rfl⟩ .nil))
  exact ⟨rfl, rfl, ⟨fun l => .refl l, rfl, .inl rfl, rfl⟩, ⟨fun l => .refl l, rfl, .inl rfl, rfl⟩, le_refl _, List.take_prefix _ _, hs.starts, hs.ends, by decide +kernel⟩

/-- The three kinds of results: the comment is shorter; only the block is left; an error. -/
example : Parse (exEnv [(c!"/e/n", c!"http{root /r;}\nb a; #x")]) 2 c!"/e/n" { exOpts with parseComments := true, singleFile := true } =
      .ok (okPayload [(c!"/e/n", [blk c!"http" 1 [] [dir c!"root" 1 [c!"/r"]], dir c!"b" 2 [c!"a"], ⟨c!"#", 2, [], [], none, none, some c!"x", false⟩])]) ∧
    Parse (exEnv [(c!"/e/n", c!"http{root /r;}\n")]) 2 c!"/e/n" { exOpts with parseComments := true, singleFile := true } =
      .ok (okPayload [(c!"/e/n", [blk c!"http" 1 [] [dir c!"root" 1 [c!"/r"]]])]) ∧
    ∃ p, Parse (exEnv [(c!"/e/n", c!"http{root /r;}\nb a")]) 2 c!"/e/n" { exOpts with parseComments := true, singleFile := true } = .ok p ∧
      p.config.map (fun c => (c.file, c.status, c.parsed)) = [(c!"/e/n", c!"failed", [])] ∧ p.errors.map (fun e => (e.file, e.line)) = [(c!"/e/n", some 2)] :=
  ⟨by decide +kernel, by decide +kernel, badPayload c!"/e/n" 2 (prematureError c!"/e/n" [] 2) [], by decide +kernel, by decide +kernel, by decide +kernel⟩

/-- C95 is false with IgnoreDirectives: if the cut is in the block of an ignored directive, the error of the lexer is skipped with it, and the block around it is accepted although
what follows in it is missing. -/
theorem C95_false : ∃ (env env' : Env) (o : ParseOptions) (cut whole : FileData) (ds ds' : List Directive), o.lexers = [] ∧ OneFile env c!"/e/n" o cut ∧
    OneFile env' c!"/e/n" o whole ∧ cut.runes <+: whole.runes ∧ Shape (lex whole.runes) ∧ Parse env' 2 c!"/e/n" o = .ok (okPayload [(c!"/e/n", ds)]) ∧
    Parse env 2 c!"/e/n" o = .ok (okPayload [(c!"/e/n", ds')]) ∧ ¬ CutTree ds' ds := by
  have hl : lex c!"http{types{a b;}root /r;}" = [⟨c!"http", 1, false, none⟩, ⟨c!"{", 1, false, none⟩, ⟨c!"types", 1, false, none⟩, ⟨c!"{", 1, false, none⟩,
      ⟨c!"a", 1, false, none⟩, ⟨c!"b", 1, false, none⟩, ⟨c!";", 1, false, none⟩, ⟨c!"}", 1, false, none⟩, ⟨c!"root", 1, false, none⟩, ⟨c!"/r", 1, false, none⟩,
      ⟨c!";", 1, false, none⟩, ⟨c!"}", 1, false, none⟩] := by decide +kernel
  have hw : ∀ v line, (⟨v, line, false, none⟩ : Tok).isTerm = false ∧ (⟨v, line, false, none⟩ : Tok).isCommentTok = false →
      WordTok ⟨v, line, false, none⟩ := fun _ _ h => wordTok_iff.mpr h
  refine ⟨exEnv [(c!"/e/n", c!"http{types{a")], exEnv [(c!"/e/n", c!"http{types{a b;}root /r;}")], { exOpts with ignoreDirectives := [c!"types"], singleFile := true },
    { runes := c!"http{types{a" }, { runes := c!"http{types{a b;}root /r;}" }, [blk c!"http" 1 [] [dir c!"root" 1 [c!"/r"]]], [blk c!"http" 1 [] []], rfl,
    ⟨fun l => .refl l, rfl, .inl rfl, rfl⟩, ⟨fun l => .refl l, rfl, .inl rfl, rfl⟩, ⟨c!" b;}root /r;}", rfl⟩, ?_, by decide +kernel, by decide +kernel, ?_⟩
  · rw [hl]
    exact .block (mid := []) (inner := [⟨c!"types", 1, false, none⟩, ⟨c!"{", 1, false, none⟩, ⟨c!"a", 1, false, none⟩, ⟨c!"b", 1, false, none⟩, ⟨c!";", 1, false, none⟩,
        ⟨c!"}", 1, false, none⟩, ⟨c!"root", 1, false, none⟩, ⟨c!"/r", 1, false, none⟩, ⟨c!";", 1, false, none⟩]) (toks := []) (hw _ _ (by decide)) .nil ⟨rfl, rfl⟩
      (.block (mid := []) (inner := [⟨c!"a", 1, false, none⟩, ⟨c!"b", 1, false, none⟩, ⟨c!";", 1, false, none⟩]) (hw _ _ (by decide)) .nil ⟨rfl, rfl⟩
        (.simple (mid := [⟨c!"b", 1, false, none⟩]) (toks := []) (hw _ _ (by decide)) (.word (hw _ _ (by decide)) .nil) ⟨rfl, rfl⟩ .nil) ⟨rfl, rfl⟩
        (.simple (mid := [⟨c!"/r", 1, false, none⟩]) (toks := []) (hw _ _ (by decide)) (.word (hw _ _ (by decide)) .nil) ⟨rfl, rfl⟩ .nil)) ⟨rfl, rfl⟩ .nil
  · rintro (⟨t, h⟩ | ⟨before, c, rest, text, text', h, -⟩)
    · simp [blk] at h
    · rcases before with - | ⟨d, before⟩
      · simp [blk] at h
      · simp at h

end Verif
