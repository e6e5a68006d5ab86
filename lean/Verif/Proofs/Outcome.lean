import Verif.Proofs.Recovery
import Verif.Proofs.Causes
import Verif.Proofs.Restable
import Verif.Spec.Outcome
/-!
# Every run is as `Keeps` or `Breaks` says
-/
namespace Verif
open Spec

/-! ## Skipping -/

theorem nesting_cons (t : Tok) (toks : List Tok) : nesting (t :: toks) = nest1 t + nesting toks := rfl

def PastAt (n : Nat) (toks rest : List Tok) : Prop :=
  (∃ over, toks = over ++ rest ∧ nesting over = -(n + 1 : Int) ∧ ∀ p, p <+: over → p ≠ over → -(n : Int) ≤ nesting p) ∨
    (rest = [] ∧ ∀ p, p <+: toks → -(n : Int) ≤ nesting p)

theorem PastAt_step {n n' : Nat} {t : Tok} {toks rest : List Tok} (h : (n' : Int) = n + nest1 t) : PastAt n (t :: toks) rest ↔ PastAt n' toks rest := by
  constructor
  · rintro (⟨over, h1, h2, h3⟩ | ⟨h1, h2⟩)
    · cases over with
      | nil => have : (0 : Int) = -(n + 1) := h2; omega
      | cons u over =>
        simp only [List.cons_append, List.cons.injEq] at h1
        obtain ⟨rfl, rfl⟩ := h1
        rw [nesting_cons] at h2
        refine Or.inl ⟨over, rfl, by omega, fun p hp hne => ?_⟩
        have := h3 (t :: p) (List.cons_prefix_cons.mpr ⟨rfl, hp⟩) (by simp [hne])
        rw [nesting_cons] at this
        omega
    · refine Or.inr ⟨h1, fun p hp => ?_⟩
      have := h2 (t :: p) (List.cons_prefix_cons.mpr ⟨rfl, hp⟩)
      rw [nesting_cons] at this
      omega
  · rintro (⟨over, rfl, h2, h3⟩ | ⟨h1, h2⟩)
    · refine Or.inl ⟨t :: over, rfl, by rw [nesting_cons]; omega, fun p hp hne => ?_⟩
      cases p with
      | nil => show -(n : Int) ≤ 0; omega
      | cons u p =>
        obtain ⟨rfl, hp'⟩ := List.cons_prefix_cons.mp hp
        have := h3 p hp' (by rintro rfl; exact hne rfl)
        rw [nesting_cons]; omega
    · refine Or.inr ⟨h1, fun p hp => ?_⟩
      cases p with
      | nil => show -(n : Int) ≤ 0; omega
      | cons u p =>
        obtain ⟨rfl, hp'⟩ := List.cons_prefix_cons.mp hp
        have := h2 p hp'
        rw [nesting_cons]; omega

theorem PastAt_iff (toks : List Tok) : ∀ (n : Nat) (rest : List Tok), PastAt n toks rest ↔ rest = consume n toks := by
  induction toks with
  | nil =>
    intro n rest
    constructor
    · rintro (⟨over, h1, h2, -⟩ | ⟨h1, -⟩)
      · obtain ⟨rfl, rfl⟩ := List.append_eq_nil_iff.mp h1.symm
        have : (0 : Int) = -(n + 1) := h2
        omega
      · exact h1
    · rintro rfl
      refine Or.inr ⟨rfl, fun p hp => ?_⟩
      rw [List.prefix_nil.mp hp]
      show -(n : Int) ≤ 0; omega
  | cons t toks ih =>
    intro n rest
    have hb : nest1 t = if (t.error.isSome || t.is c!"}") = true then -1 else if t.is c!"{" = true then 1 else 0 := by
      simp [nest1, is_mark, Mark]
    rw [consume.eq_def]
    simp only
    by_cases h1 : (t.error.isSome || t.is c!"}") = true
    · rw [if_pos h1] at hb ⊢
      cases n with
      | zero =>
        simp only
        constructor
        · rintro (⟨over, e1, e2, e3⟩ | ⟨-, e2⟩)
          · cases over with
            | nil => have : (0 : Int) = -(0 + 1) := e2; omega
            | cons u over =>
              simp only [List.cons_append, List.cons.injEq] at e1
              obtain ⟨rfl, rfl⟩ := e1
              cases over with
              | nil => rfl
              | cons v over =>
                have := e3 [t] (by simp) (by simp)
                rw [nesting_cons, hb] at this
                simp [nesting] at this
          · have := e2 [t] (by simp)
            rw [nesting_cons, hb] at this
            simp [nesting] at this
        · rintro rfl
          refine Or.inl ⟨[t], rfl, by rw [nesting_cons, hb]; rfl, fun p hp hne => ?_⟩
          cases p with
          | nil => decide
          | cons u p =>
            obtain ⟨rfl, hp'⟩ := List.cons_prefix_cons.mp hp
            rw [List.prefix_nil.mp hp'] at hne
            exact absurd rfl hne
      | succ n =>
        rw [PastAt_step (n' := n) (by rw [hb]; push_cast; omega)]
        exact ih n rest
    · rw [if_neg h1] at hb ⊢
      by_cases h2 : t.is c!"{" = true
      · rw [if_pos h2] at hb ⊢
        rw [PastAt_step (n' := n + 1) (by rw [hb]; push_cast; omega)]
        exact ih _ rest
      · rw [if_neg h2] at hb ⊢
        rw [PastAt_step (n' := n) (by rw [hb]; omega)]
        exact ih _ rest

theorem Past_iff {toks rest : List Tok} : Past toks rest ↔ rest = consume 0 toks := by
  rw [← PastAt_iff]
  simp [Past, PastAt]

theorem After_iff {term : Tok} (hq : term.quoted = false) {toks rest : List Tok} : After term toks rest ↔ rest = skipBlock term toks := by
  unfold After skipBlock
  by_cases h : term.value = c!"{"
  · rw [if_pos h, if_pos (is_mark.mpr ⟨hq, h⟩), Past_iff]
  · rw [if_neg h, if_neg]
    rw [is_mark]
    exact fun hm => h hm.2

/-! ## The messages -/

theorem unknown_suffix (n : Str) : hasSuffix (c!"unknown directive \"" ++ n ++ c!"\"") notTerminated = true ↔ OddName n := by
  constructor
  · intro h
    by_contra ho
    have h2 : analyze [] { directive := n, line := 0, args := [] } c!";" [] { errorOnUnknownDirectives := true, directiveSources := [fun _ => none] } =
      some (stmtError (c!"unknown directive \"" ++ n ++ c!"\"") [] { directive := n, line := 0, args := [] } (getLastBlock [])) := rfl
    have := analyze_semi h2 ho
    rw [show (stmtError (c!"unknown directive \"" ++ n ++ c!"\"") [] { directive := n, line := 0, args := [] } (getLastBlock [])).what =
      c!"unknown directive \"" ++ n ++ c!"\"" from rfl, h] at this
    cases this
  · rintro ⟨s, rfl⟩
    rw [hasSuffix, List.isSuffixOf_iff_suffix]
    exact ⟨c!"unknown directive \"" ++ s, by simp [notTerminated]⟩

theorem checkMasks_last {stmt : Directive} {term : Str} {masks : List Nat} : ∀ {what w : Str}, checkMasks stmt term what masks = some w →
    masks = [] ∧ w = what ∨ ∃ m, masks.getLast? = some m ∧
      (hasSuffix w notTerminated = true ↔ m.testBit 8 = false ∧ (m.testBit 9 = true → InParens stmt.args) ∧ term ≠ c!";") := by
  induction masks with
  | nil => intro what w h; cases h; exact Or.inl ⟨rfl, rfl⟩
  | cons m masks ih =>
    intro what w h
    refine Or.inr ?_
    have go : ∀ w', checkMasks stmt term w' masks = some w →
        (hasSuffix w' notTerminated = true ↔ m.testBit 8 = false ∧ (m.testBit 9 = true → InParens stmt.args) ∧ term ≠ c!";") →
        ∃ m', (m :: masks).getLast? = some m' ∧
      (hasSuffix w notTerminated = true ↔ m'.testBit 8 = false ∧ (m'.testBit 9 = true → InParens stmt.args) ∧ term ≠ c!";") := by
      intro w' h' hw
      rcases ih h' with ⟨rfl, rfl⟩ | ⟨m', h1, h2⟩
      · exact ⟨m, rfl, hw⟩
      · refine ⟨m', ?_, h2⟩
        cases masks with
        | nil => cases h1
        | cons a as => exact h1
    have no : ∀ {w'}, hasSuffix w' notTerminated = false →
        ¬ (m.testBit 8 = false ∧ (m.testBit 9 = true → InParens stmt.args) ∧ term ≠ c!";") →
        (hasSuffix w' notTerminated = true ↔ m.testBit 8 = false ∧ (m.testBit 9 = true → InParens stmt.args) ∧ term ≠ c!";") := by
      intro w' h1 h2
      rw [h1]
      exact ⟨fun h => absurd h (by simp), fun h => absurd h h2⟩
    rw [checkMasks, expr_bit, block_bit, block_bit'] at h
    split at h
    · rename_i hc
      simp only [Bool.and_eq_true, Bool.not_eq_true', ← Bool.not_eq_true, validExpr_iff] at hc
      refine go _ h (no ?_ fun h => hc.2 (h.2.1 hc.1))
      rw [show (c!"directive \"" ++ stmt.directive ++ c!"\"'s is not enclosed in parentheses" : Str) =
        (c!"directive \"" ++ stmt.directive ++ c!"\"'s is not enclosed in parenthese") ++ c!"s" by simp]
      exact hasSuffix_not (by decide) (by decide)
    · rename_i hc0
      simp only [Bool.and_eq_true, Bool.not_eq_true', ← Bool.not_eq_true, validExpr_iff, not_and, not_not] at hc0
      split at h
      · rename_i hc
        simp only [Bool.and_eq_true] at hc
        refine go _ h (no ?_ fun h => by rw [hc.1] at h; cases h.1)
        rw [show (c!"directive \"" ++ stmt.directive ++ c!"\" has no opening \"{\"" : Str) =
          (c!"directive \"" ++ stmt.directive ++ c!"\" has no opening \"") ++ c!"{\"" by simp]
        exact hasSuffix_not (by decide) (by decide)
      · rename_i hc1
        simp only [Bool.and_eq_true, bne_iff_ne, not_and, not_not] at hc1
        split at h
        · rename_i hc
          simp only [Bool.and_eq_true, Bool.not_eq_true', bne_iff_ne] at hc
          refine go _ h ⟨fun _ => ⟨hc.1, hc0, hc.2⟩, fun _ => ?_⟩
          rw [hasSuffix, List.isSuffixOf_iff_suffix]
          exact ⟨c!"directive \"" ++ stmt.directive ++ c!"\"", by simp [notTerminated]⟩
        · rename_i hc2
          simp only [Bool.and_eq_true, Bool.not_eq_true', bne_iff_ne, not_and, not_not] at hc2
          split at h
          · cases h
          · split at h
            · refine go _ h (no ?_ fun h => h.2.2 (hc2 h.1))
              rw [show (c!"invalid value \"" ++ stmt.args.headD [] ++ c!"\" in \"" ++ stmt.directive ++ c!"\" directive, it must be \"on\" or \"off\"" : Str) =
                (c!"invalid value \"" ++ stmt.args.headD [] ++ c!"\" in \"" ++ stmt.directive ++ c!"\" directive, it must be \"on\" or \"of") ++ c!"f\"" by simp]
              exact hasSuffix_not (by decide) (by decide)
            · refine go _ h (no ?_ fun h => h.2.2 (hc2 h.1))
              rw [show (c!"invalid number of arguments in \"" ++ stmt.directive ++ c!"\" directive" : Str) =
                (c!"invalid number of arguments in \"" ++ stmt.directive ++ c!"\" directiv") ++ c!"e" by simp]
              exact hasSuffix_not (by decide) (by decide)

theorem fold_masks (fs : List MatchFunc) (name : Str) : ∀ (acc : Option (List Nat)),
    (fs.foldl (fun acc f => match f name with | some ms => some (acc.getD [] ++ ms) | none => acc) acc).getD [] =
      acc.getD [] ++ fs.flatMap fun f => (f name).getD [] := by
  induction fs with
  | nil => intro acc; simp
  | cons f fs ih =>
    intro acc
    rw [List.foldl_cons, ih, List.flatMap_cons]
    cases f name <;> simp

theorem lookupMasks_masks (o : ParseOptions) (name : Str) (N : List Str → Option (List Str)) : (lookupMasks o name).getD [] = (rulesOf o N).masks name := by
  show _ = (sourcesOf o).flatMap fun f => (f name).getD []
  unfold lookupMasks sourcesOf
  by_cases h : o.directiveSources = []
  · simp [h]
  · have : (o.directiveSources.length == 0) = false := by
      cases hl : o.directiveSources
      · exact absurd hl h
      · rfl
    rw [this, if_neg (by simp), if_neg h]
    exact fold_masks o.directiveSources name none

/-- When a rejected statement is said to lack a `;`. -/
theorem analyze_unended {fname : Str} {stmt : Directive} {term : Str} {ctx : List Str} {o : ParseOptions} {e : ParseError} {N : List Str → Option (List Str)}
    (h : analyze fname stmt term ctx o = some e) : hasSuffix e.what notTerminated = true ↔ (rulesOf o N).Unended ctx stmt.directive stmt.args term := by
  obtain ⟨hk, -⟩ := lookupMasks_spec o stmt.directive
  have hm := lookupMasks_masks o stmt.directive N
  have hlook : contexts.lookup (ctxKey ctx) = (contextBit (pathOf ctx)).map (2 ^ ·) := by
    rw [← pathOf_key, contexts_lookup (pathOf_plain ctx)]
  have hU : (rulesOf o N).Unended ctx stmt.directive stmt.args term ↔
      (o.errorOnUnknownDirectives = true ∧ ¬ Known (sourcesOf o) stmt.directive ∧ OddName stmt.directive) ∨
      (Known (sourcesOf o) stmt.directive ∧ term ≠ c!";" ∧ ∃ b m, contextBit (pathOf ctx) = some b ∧
        (((rulesOf o N).masks stmt.directive).filter fun m => o.skipDirectiveContextCheck || m.testBit b).getLast? = some m ∧ m.testBit 8 = false ∧
          (m.testBit 9 = true → InParens stmt.args)) := Iff.rfl
  rw [hU]
  clear hU
  rw [← hk, ← hm]
  unfold analyze at h
  rw [hlook] at h
  generalize hl : lookupMasks o stmt.directive = known at h hk hm ⊢
  simp only at h
  cases known with
  | none =>
    cases hs : o.errorOnUnknownDirectives with
    | true =>
      rw [hs] at h
      simp only [Option.isNone_none, Bool.and_true, if_true] at h
      cases h
      simp only [Option.isSome_none, Bool.false_eq_true, not_false_eq_true, true_and, false_and, or_false]
      exact unknown_suffix _
    | false =>
      rw [hs] at h
      simp only [Option.isNone_none, Bool.and_true, Bool.false_eq_true, if_false] at h
      cases hb : contextBit (pathOf ctx) <;> rw [hb] at h <;> cases h
  | some ms =>
    simp only [Option.isNone_some, Bool.and_false, Bool.false_eq_true, if_false] at h
    simp only [Option.isSome_some, not_true_eq_false, false_and, and_false, false_or, true_and, Option.getD_some]
    cases hb : contextBit (pathOf ctx) with
    | none => rw [hb] at h; cases h
    | some b =>
      rw [hb] at h
      simp only [Option.map_some] at h
      have hms : (if o.skipDirectiveContextCheck = true then ms else ms.filter (fun mask => (mask &&& 2 ^ b) != 0)) =
          ms.filter fun m => o.skipDirectiveContextCheck || m.testBit b := by
        cases o.skipDirectiveContextCheck with
        | true => simp
        | false => simp [bit_filter]
      rw [hms] at h
      generalize hg : (ms.filter fun m => o.skipDirectiveContextCheck || m.testBit b) = ms' at h
      have hsome : (∃ b_1 m, some b = some b_1 ∧ (ms.filter fun m => o.skipDirectiveContextCheck || m.testBit b_1).getLast? = some m ∧ m.testBit 8 = false ∧
          (m.testBit 9 = true → InParens stmt.args)) ↔ ∃ m, ms'.getLast? = some m ∧ m.testBit 8 = false ∧ (m.testBit 9 = true → InParens stmt.args) := by
        constructor
        · rintro ⟨b', m, hb', h1, h2⟩
          cases hb'
          rw [hg] at h1
          exact ⟨m, h1, h2⟩
        · rintro ⟨m, h1, h2⟩
          exact ⟨b, m, rfl, by rw [hg]; exact h1, h2⟩
      rw [hsome]
      split at h
      · rename_i hc
        cases h
        simp only [Bool.and_eq_true, beq_iff_eq, List.length_eq_zero_iff] at hc
        rw [hc.2]
        simp only [List.getLast?_nil, reduceCtorEq, false_and, exists_false, and_false, iff_false, Bool.not_eq_true]
        show hasSuffix (c!"\"" ++ stmt.directive ++ c!"\" directive is not allowed here") notTerminated = false
        rw [show (c!"\"" ++ stmt.directive ++ c!"\" directive is not allowed here" : Str) = (c!"\"" ++ stmt.directive ++ c!"\" directive is not allowed her") ++ c!"e" by simp]
        exact hasSuffix_not (by decide) (by decide)
      · split at h
        · cases h
        · cases hck : checkMasks stmt term [] ms' with
          | none => rw [hck] at h; cases h
          | some w =>
            rw [hck] at h
            cases h
            show hasSuffix w notTerminated = true ↔ _
            rcases checkMasks_last hck with ⟨rfl, rfl⟩ | ⟨m, h1, h2⟩
            · simp only [List.getLast?_nil, reduceCtorEq, false_and, exists_false, and_false, iff_false, Bool.not_eq_true]
              decide
            · rw [h2, h1]
              simp only [Option.some.injEq]
              constructor
              · rintro ⟨a, b, c⟩; exact ⟨c, m, rfl, a, b⟩
              · rintro ⟨c, m', rfl, a, b⟩; exact ⟨a, b, c⟩

/-! ## One statement -/

def Spec.Outcome.next : Outcome → List Tok
  | .on _ _ next => next
  | .stop _ next => next
  | .enter _ _ next => next
  | .broken _ => []
  | .crash => []

theorem Spec.Past.suffix {toks rest : List Tok} (h : Past toks rest) : rest <:+ toks := by
  rw [Past_iff.mp h]; exact consume_suffix toks 0

theorem Spec.After.suffix {term : Tok} {toks rest : List Tok} (h : After term toks rest) : rest <:+ toks := by
  unfold After at h
  split at h
  · exact h.suffix
  · rw [h]

theorem Spec.Statement.suffix {r : Rules} {ctx : List Str} {t : Tok} {toks : List Tok} {out : Outcome} (h : Statement r ctx t toks out) : out.next <:+ toks := by
  have tail : ∀ (mid : List Tok) (u : Tok) {rest toks : List Tok}, rest <:+ toks → rest <:+ mid ++ u :: toks :=
    fun mid u _ _ hs => hs.trans ((List.suffix_cons u _).trans (List.suffix_append mid _))
  cases h with
  | error => exact List.nil_suffix
  | close => exact List.suffix_refl _
  | comment => exact List.suffix_refl _
  | premature => exact List.nil_suffix
  | param => exact tail _ _ (List.suffix_refl _)
  | wrongParam _ _ _ _ _ h => exact tail _ _ h.suffix
  | ignored _ _ _ _ _ h => exact tail _ _ h.suffix
  | simple => exact tail _ _ (List.suffix_refl _)
  | block => exact tail _ _ (List.suffix_refl _)
  | crash => exact List.nil_suffix
  | wrongStop => exact tail _ _ (List.suffix_refl _)
  | wrongSkip _ _ _ _ _ _ _ _ h => exact tail _ _ h.suffix
  | wrong => exact tail _ _ (List.suffix_refl _)

/-- There is always something made of a statement. -/
theorem Spec.Statement.total (r : Rules) (ctx : List Str) (t : Tok) (toks : List Tok) : ∃ out, Statement r ctx t toks out := by
  by_cases he : t.error = none
  swap
  · exact ⟨_, .error he⟩
  by_cases hc : Mark t c!"}"
  · exact ⟨_, .close he hc⟩
  by_cases hcom : ∃ text, CommentTok t text
  · obtain ⟨text, h⟩ := hcom
    exact ⟨_, .comment he h⟩
  have hh : HeadTok t := ⟨he, hc, fun text h => hcom ⟨text, h⟩⟩
  cases hr : readArgs true [] [] toks with
  | none =>
    obtain ⟨as, texts, h⟩ := readArgs_none hr
    exact ⟨_, .premature hh h⟩
  | some x =>
    obtain ⟨args, comments, term, rest⟩ := x
    obtain ⟨mid, as, texts, rfl, hw, -, -, hterm, -⟩ := readArgs_words hr
    have hz := endTok_iff.mpr hterm
    have hq : term.quoted = false := by rcases hz with h | h | h <;> exact h.1
    have hafter : After term rest (skipBlock term rest) := (After_iff hq).mpr rfl
    by_cases hm : ∃ m, InMap ctx m
    · obtain ⟨m, hm⟩ := hm
      by_cases hok : term.value = c!";" ∧ MapArgs m t.value as.length
      · exact ⟨_, .param hh hm hw ⟨hq, hok.1⟩ hok.2⟩
      · exact ⟨_, .wrongParam hh hm hw hz hok hafter⟩
    · have hm : ∀ m, ¬ InMap ctx m := fun m h => hm ⟨m, h⟩
      by_cases hi : t.value ∈ r.ignore
      · exact ⟨_, .ignored hh hm hi hw hz hafter⟩
      · by_cases hok : r.Ok ctx t.value as term.value
        · by_cases ha : ∃ args', StmtArgs t.value as args'
          · obtain ⟨args', ha⟩ := ha
            by_cases ho : term.value = c!"{"
            · rw [ho] at hok
              exact ⟨_, .block hh hm hi hw ⟨hq, ho⟩ hok ha⟩
            · exact ⟨_, .simple hh hm hi hw hz hok ha ho⟩
          · exact ⟨_, .crash hh hm hi hw hz hok fun args' h => ha ⟨args', h⟩⟩
        · by_cases hu : r.Unended ctx t.value as term.value
          · by_cases hcl : term.value = c!"}"
            · rw [hcl] at hok hu
              exact ⟨_, .wrongStop hh hm hi hw ⟨hq, hcl⟩ hok hu⟩
            · exact ⟨_, .wrongSkip hh hm hi hw hz hcl hok hu (Past_iff.mpr rfl)⟩
          · exact ⟨_, .wrong hh hm hi hw hz hok hu⟩

/-- Either no error stops the run, and `P`; or the first error stops it, and `Q`. -/
def Unless (o : ParseOptions) (ls : List Int) (P : Prop) (Q : GoErr → Prop) : Prop :=
  (ls = [] ∨ o.stopParsingOnError = false) ∧ P ∨ o.stopParsingOnError = true ∧ ∃ l ls' e, ls = l :: ls' ∧ GoErr.line? e = some l ∧ Q e

/-- The outcome of a round is what is made of the statement. -/
def MadeOf (o : ParseOptions) (file : Str) (ps : PS) (s : Step) : Outcome → Prop
  | .on ds ls next => Unless o ls (∃ ps', s = .next ds next ps' ∧ Noted o file ls ps ps') fun e => ∃ toks', s = .fail (some e) toks' ps
  | .stop ls next => Unless o ls (∃ ps', s = .stop next ps' ∧ Noted o file ls ps ps') fun e => ∃ toks', s = .fail (some e) toks' ps
  | .enter d trailing next => ∃ args comments t, d = baseStmt o file t args ∧ s = .block d comments next ps ∧
      commentDirectives d.line (if o.combineConfigs then file else []) comments = trailing
  | .broken line => ∃ e toks', s = .fail (some e) toks' ps ∧ e.line? = line
  | .crash => ∃ toks', s = .fail none toks' ps

theorem Unless.quiet {o : ParseOptions} {P : Prop} {Q : GoErr → Prop} (h : P) : Unless o [] P Q := Or.inl ⟨Or.inl rfl, h⟩

theorem Unless.err {o : ParseOptions} {P : Prop} {Q : GoErr → Prop} {l : Int} {e : GoErr} (he : e.line? = some l) (hp : o.stopParsingOnError = false → P)
    (hq : o.stopParsingOnError = true → Q e) : Unless o [l] P Q := by
  cases h : o.stopParsingOnError with
  | false => exact Or.inl ⟨Or.inr h, hp h⟩
  | true => exact Or.inr ⟨h, l, [], e, rfl, he, hq h⟩

/-- The directive that a statement is taken for. -/
def Spec.Outcome.head : Outcome → Option Directive
  | .on ds _ _ => ds.head?
  | .enter d _ _ => some d
  | _ => none

theorem Spec.Statement.head_name {r : Rules} {ctx : List Str} {t : Tok} {toks : List Tok} {out : Outcome} (h : Statement r ctx t toks out) {d : Directive}
    (hd : out.head = some d) : d.directive = t.value ∨ d.directive = c!"#" := by
  cases h with
  | comment =>
    simp only [Spec.Outcome.head] at hd
    split at hd
    · cases hd; exact Or.inr rfl
    · cases hd
  | param => cases hd; exact Or.inl rfl
  | simple => cases hd; exact Or.inl rfl
  | block => cases hd; exact Or.inl rfl
  | _ => cases hd

theorem NoInclude.head {o : ParseOptions} {r : Rules} {ctx : List Str} {t : Tok} {toks : List Tok} {out : Outcome} (h : NoInclude o (t :: toks))
    (hs : Statement r ctx t toks out) (d : Directive) (hd : out.head = some d) (hi : d.directive = c!"include") (_ : d.isMapBlockParameter = false) :
    o.singleFile = true := by
  rcases h with h | h
  · exact h
  · rcases hs.head_name hd with h1 | h1
    · exact absurd (h1.symm.trans hi) (h t (by simp))
    · rw [hi] at h1; simp at h1

theorem Spec.Statement.step {env : Env} {o : ParseOptions} {configDir file : Str} (hcomb : o.combineConfigs = false) {N : List Str → Option (List Str)} {ctx : Ctx}
    {t : Tok} {toks : List Tok} {out : Outcome} (h : Statement (rulesOf o N) ctx.vals t toks out)
    (hno : ∀ d, out.head = some d → d.directive = c!"include" → d.isMapBlockParameter = false → o.singleFile = true) (ps : PS) :
    MadeOf o file ps (step env o configDir file ctx t toks ps) out := by
  have other : ∀ (d : Directive) (args : List Str), out.head = some d → d.directive = t.value → d.isMapBlockParameter = false →
      doInclude env o configDir file ctx (baseStmt o file t args) ps = (.ok (baseStmt o file t args), ps) := by
    intro d args h1 h2 h3
    unfold doInclude
    rw [if_neg]
    rw [baseStmt_directive]
    by_cases hi : t.value = c!"include"
    · simp [hno d h1 (h2.trans hi) h3]
    · simp [hi]
  have reads : ∀ {mid rest : List Tok} {args texts : List Str} {term : Tok}, HeadTok t → Words mid args texts → EndTok term →
      Reads o t (mid ++ term :: rest) args (if o.parseComments then texts else []) term rest := by
    intro mid rest args texts term hh hw hz
    refine ⟨hh.1, is_mark_false.mpr hh.2.1, ?_, ?_⟩
    · rw [← Bool.not_eq_true, isCommentTok_iff]
      rintro ⟨text, h⟩
      exact hh.2.2 text h
    · simpa using hw.read (endTok_iff.mp hz) rest [] []
  have quoted : ∀ {u : Tok}, EndTok u → u.quoted = false := by
    intro u hz; rcases hz with h | h | h <;> exact h.1
  have hstmt : ∀ args, (baseStmt o file t args).directive = t.value := fun _ => rfl
  have rejected : ∀ {args : List Str} {term : Str}, ¬ (rulesOf o N).Ok ctx.vals t.value args term →
      ∃ err, analyze file (baseStmt o file t args) term ctx.vals o = some err ∧ err.line = some t.line := by
    intro args term hbad
    obtain ⟨err, han⟩ : ∃ err, analyze file (baseStmt o file t args) term ctx.vals o = some err := by
      rw [← Option.isSome_iff_exists, ← Option.ne_none_iff_isSome, ne_eq, analyze_rules _ _ _ _ _ N]
      exact hbad
    refine ⟨err, han, ?_⟩
    obtain ⟨w, rfl, -⟩ := analyze_some han
    rfl
  cases h with
  | error he =>
    obtain ⟨e, he⟩ := Option.ne_none_iff_exists'.mp he
    refine ⟨_, _, (StepR.tokErr e he).step_eq, ?_⟩
    unfold tokLine
    rw [he]
    cases e <;> rfl
  | close he hc => exact Unless.quiet ⟨ps, (StepR.close he (is_mark.mpr hc)).step_eq, Noted.refl ps⟩
  | @comment text _ he hc =>
    have hnc : t.is c!"}" = false := by
      rw [is_mark_false]; intro hm; rw [CommentTok, Mark, hm.2] at hc; simp at hc
    refine Unless.quiet ⟨ps, ?_, Noted.refl ps⟩
    rw [(StepR.comment he hnc (isCommentTok_iff.mpr ⟨text, hc⟩)).step_eq]
    have : commentStmt o file t = { directive := c!"#", line := t.line, args := [], comment := some text } := by
      unfold commentStmt
      rw [hcomb, hc.2]
      rfl
    rw [this]
    rfl
  | @premature _ args texts hh hw =>
    refine ⟨_, _, (StepR.premature hh.1 (is_mark_false.mpr hh.2.1) ?_ ?_).step_eq, rfl⟩
    · rw [← Bool.not_eq_true, isCommentTok_iff]
      rintro ⟨text, h⟩
      exact hh.2.2 text h
    · cases hr : readArgs o.parseComments [] [] toks with
      | none => rfl
      | some x =>
        exfalso
        obtain ⟨args, comments, term, rest⟩ := x
        obtain ⟨mid, as, texts, rfl, -, -, -, hterm, -⟩ := readArgs_words hr
        have hall : ∀ {a : List Tok} {b c : List Str}, Words a b c → ∀ u ∈ a, u.isTerm = false := by
          intro a b c h
          induction h with
          | nil => intro u hu; cases hu
          | word hw _ ih =>
            intro u hu
            rcases List.mem_cons.mp hu with rfl | hu
            · exact (wordTok_iff.mp hw).1
            · exact ih u hu
          | comment hc _ ih =>
            intro u hu
            rcases List.mem_cons.mp hu with rfl | hu
            · rw [← Bool.not_eq_true, isTerm_mark]
              rintro (h | h | h) <;> (rw [CommentTok, Mark, h.2] at hc; simp at hc)
            · exact ih u hu
        rw [hall hw term (by simp)] at hterm
        cases hterm
  | @param m mid args texts semi rest hh hm hw hs ha =>
    have R := reads (rest := rest) hh hw (Or.inl hs)
    have han : analyzeMapBody file (baseStmt o file t args) semi.value m = none := by
      rw [C27_decision _ _ _ _ hm.2]
      exact ⟨hs.2, ha⟩
    refine Unless.quiet ⟨ps, ?_, Noted.refl ps⟩
    rw [(StepR.mapOk _ _ _ _ m R ((mapCtx_eq _ _).mpr hm) han).step_eq, baseStmt_plain hcomb]
  | @wrongParam m mid args texts term rest next hh hm hw hz ha haf =>
    have R := reads (rest := rest) hh hw hz
    obtain ⟨err, han⟩ : ∃ err, analyzeMapBody file (baseStmt o file t args) term.value m = some err := by
      rw [← Option.isSome_iff_exists, ← Option.ne_none_iff_isSome, ne_eq, C27_decision _ _ _ _ hm.2]
      exact ha
    have hline := analyzeMapBody_line han
    rw [After_iff (quoted hz)] at haf
    subst haf
    refine Unless.err (e := .parse err) hline (fun hs => ?_) fun hs => ?_
    · exact ⟨_, (StepR.mapBad _ _ _ _ m err R ((mapCtx_eq _ _).mpr hm) han hs).step_eq, Noted.one hline⟩
    · exact ⟨_, (StepR.mapFail _ _ _ _ m err R ((mapCtx_eq _ _).mpr hm) han hs).step_eq⟩
  | @ignored mid args texts term rest next hh hm hi hw hz haf =>
    have R := reads (rest := rest) hh hw hz
    rw [After_iff (quoted hz)] at haf
    subst haf
    exact Unless.quiet ⟨ps, (StepR.ignored _ _ _ _ R (mapCtx_none.mpr hm) (contains_iff.mpr hi)).step_eq, Noted.refl ps⟩
  | @simple mid args args' texts term rest hh hm hi hw hz hok ha hno' =>
    have R := reads (rest := rest) hh hw hz
    refine Unless.quiet ⟨ps, ?_, Noted.refl ps⟩
    have hs := (StepR.simple (env := env) (configDir := configDir) (file := file) (ctx := ctx) (ps := ps) _ _ _ _ _ _ _ R (mapCtx_none.mpr hm)
      (contains_false_iff.mpr hi) ((analyze_rules _ _ _ _ _ N).mpr hok) (prepIf_iff.mpr ⟨args', ha, rfl⟩) (other _ args' rfl rfl rfl)
      (by rw [is_mark_false]; exact fun h => hno' h.2)).step_eq
    rw [hs, commentDirectives_at hcomb _ _ _ N, baseStmt_plain hcomb]
    rfl
  | @block mid args args' texts opening rest hh hm hi hw ho hok ha =>
    have R := reads (rest := rest) hh hw (Or.inr (Or.inl ho))
    rw [← ho.2] at hok
    have hs := (StepR.block (env := env) (configDir := configDir) (file := file) (ctx := ctx) (ps := ps) _ _ _ _ _ _ _ R (mapCtx_none.mpr hm)
      (contains_false_iff.mpr hi) ((analyze_rules _ _ _ _ _ N).mpr hok) (prepIf_iff.mpr ⟨args', ha, rfl⟩) (other _ args' rfl rfl rfl) (is_mark.mpr ho)).step_eq
    refine ⟨args', _, t, (baseStmt_plain hcomb file t args').symm, ?_, commentDirectives_at hcomb _ _ _ N⟩
    rw [hs, baseStmt_plain hcomb]
  | @crash mid args texts term rest hh hm hi hw hz hok ha =>
    have R := reads (rest := rest) hh hw hz
    refine ⟨_, (StepR.panic _ _ _ _ R (mapCtx_none.mpr hm) (contains_false_iff.mpr hi) ((analyze_rules _ _ _ _ _ N).mpr hok) ?_).step_eq⟩
    cases hp : prepIf (baseStmt o file t args) with
    | none => rfl
    | some s =>
      obtain ⟨args', h1, -⟩ := prepIf_iff.mp hp
      exact absurd h1 (ha args')
  | @wrongStop mid args texts closing rest hh hm hi hw hc hbad hu =>
    have R := reads (rest := rest) hh hw (Or.inr (Or.inr hc))
    obtain ⟨err, han, hline⟩ := rejected hbad
    have hsuf := (analyze_unended (N := N) han).mpr hu
    rw [← hc.2] at han
    refine Unless.err (e := .parse err) hline (fun hs => ?_) fun hs => ?_
    · exact ⟨_, (StepR.rejectStop _ _ _ _ err R (mapCtx_none.mpr hm) (contains_false_iff.mpr hi) han hs hsuf (by rw [hc.2]; simp)).step_eq, Noted.one hline⟩
    · exact ⟨_, (StepR.rejectFail _ _ _ _ err R (mapCtx_none.mpr hm) (contains_false_iff.mpr hi) han hs).step_eq⟩
  | @wrongSkip mid args texts term rest next hh hm hi hw hz hnc hbad hu hpast =>
    have R := reads (rest := rest) hh hw hz
    obtain ⟨err, han, hline⟩ := rejected hbad
    have hsuf := (analyze_unended (N := N) han).mpr hu
    rw [Past_iff] at hpast
    subst hpast
    refine Unless.err (e := .parse err) hline (fun hs => ?_) fun hs => ?_
    · exact ⟨_, (StepR.rejectSkip _ _ _ _ err R (mapCtx_none.mpr hm) (contains_false_iff.mpr hi) han hs hsuf
        (by rw [quoted hz]; simpa using hnc)).step_eq, Noted.one hline⟩
    · exact ⟨_, (StepR.rejectFail _ _ _ _ err R (mapCtx_none.mpr hm) (contains_false_iff.mpr hi) han hs).step_eq⟩
  | @wrong mid args texts term rest hh hm hi hw hz hbad hu =>
    have R := reads (rest := rest) hh hw hz
    obtain ⟨err, han, hline⟩ := rejected hbad
    have hsuf : hasSuffix err.what notTerminated = false := by
      rw [← Bool.not_eq_true, analyze_unended (N := N) han]
      exact hu
    refine Unless.err (e := .parse err) hline (fun hs => ?_) fun hs => ?_
    · exact ⟨_, (StepR.reject _ _ _ _ err R (mapCtx_none.mpr hm) (contains_false_iff.mpr hi) han hs hsuf).step_eq, Noted.one hline⟩
    · exact ⟨_, (StepR.rejectFail _ _ _ _ err R (mapCtx_none.mpr hm) (contains_false_iff.mpr hi) han hs).step_eq⟩

/-! ## The run -/

theorem Spec.Keeps.suffix {r : Rules} {c : List Str} {ds : List Directive} {ls : List Int} {toks rest : List Tok} (h : Keeps r c ds ls toks rest) : rest <:+ toks := by
  induction h with
  | eof => exact List.suffix_refl _
  | stop h => exact h.suffix.trans (List.suffix_cons _ _)
  | on h _ ih => exact ih.trans (h.suffix.trans (List.suffix_cons _ _))
  | block h _ _ ihb ih => exact ih.trans (ihb.trans (h.suffix.trans (List.suffix_cons _ _)))

/-- Something is made of all tokens. -/
theorem Keeps_total (r : Rules) : ∀ (n : Nat) (ctx : List Str) (toks : List Tok), toks.length ≤ n →
    (∃ ds ls rest, Keeps r ctx ds ls toks rest) ∨ ∃ ls last, Breaks r ctx ls last toks := by
  intro n
  induction n with
  | zero =>
    intro ctx toks h
    obtain rfl := List.length_eq_zero_iff.mp (Nat.le_zero.mp h)
    exact Or.inl ⟨_, _, _, .eof⟩
  | succ n ih =>
    intro ctx toks h
    cases toks with
    | nil => exact Or.inl ⟨_, _, _, .eof⟩
    | cons t toks =>
      obtain ⟨out, hs⟩ := Statement.total r ctx t toks
      have hl := hs.suffix.length_le
      rw [List.length_cons] at h
      cases out with
      | on ds ls next =>
        rcases ih ctx next (by simp only [Outcome.next] at hl; omega) with ⟨ds', ls', rest, h⟩ | ⟨ls', last, h⟩
        · exact Or.inl ⟨_, _, _, .on hs h⟩
        · exact Or.inr ⟨_, _, .on hs h⟩
      | stop ls next => exact Or.inl ⟨_, _, _, .stop hs⟩
      | enter d trailing next =>
        rcases ih (enter ctx d.directive) next (by simp only [Outcome.next] at hl; omega) with ⟨b, lb, rest, h⟩ | ⟨lb, last, h⟩
        · have hl2 := h.suffix.length_le
          rcases ih ctx rest (by simp only [Outcome.next] at hl; omega) with ⟨ds', ls', rest, h'⟩ | ⟨ls', last, h'⟩
          · exact Or.inl ⟨_, _, _, .block hs h h'⟩
          · exact Or.inr ⟨_, _, .after hs h h'⟩
        · exact Or.inr ⟨_, _, .inside hs h⟩
      | broken line => exact Or.inr ⟨_, _, .broken hs⟩
      | crash => exact Or.inr ⟨_, _, .crash hs⟩

theorem NoInclude.suffix {o : ParseOptions} {a b : List Tok} (h : NoInclude o a) (hs : b <:+ a) : NoInclude o b := h.mono fun _ ht => hs.subset ht

theorem Spec.Keeps.run {env : Env} {o : ParseOptions} {configDir file : Str} (hcomb : o.combineConfigs = false) {N : List Str → Option (List Str)}
    {c : List Str} {ds : List Directive} {ls : List Int} {toks rest : List Tok} (h : Keeps (rulesOf o N) c ds ls toks rest) :
    ∀ (ctx : Ctx) (ps : PS), ctx.vals = c → ps.includes = [] → NoInclude o toks →
    Unless o ls (∃ ps', RunOk env o configDir file ctx toks ps ds rest ps' ∧ Noted o file ls ps ps')
      fun e => ∃ toks' ps', RunFail env o configDir file ctx toks ps (some e) toks' ps' := by
  induction h with
  | eof => intro ctx ps _ _ _; exact Unless.quiet ⟨ps, .eof ctx ps, Noted.refl ps⟩
  | @stop c t ls toks rest hs =>
    intro ctx ps hv _ hno
    subst hv
    rcases hs.step (env := env) (configDir := configDir) (file := file) hcomb (hno.head hs) ps with ⟨h1, ps', h2, h3⟩ | ⟨h1, l, ls', e, h2, h3, toks', h4⟩
    · exact Or.inl ⟨h1, ps', .stop _ _ _ _ _ _ h2, h3⟩
    · exact Or.inr ⟨h1, l, ls', e, h2, h3, toks', ps, .fail _ _ _ _ _ _ _ h4⟩
  | @on c t ds ls ds' ls' toks toks' rest hs hk ih =>
    intro ctx ps hv hin hno
    subst hv
    rcases hs.step (env := env) (configDir := configDir) (file := file) hcomb (hno.head hs) ps with ⟨h1, ps1, h2, h3⟩ | ⟨h1, l, ls1, e, h2, h3, toks1, h4⟩
    · rcases ih ctx ps1 rfl (by rw [h3.includes, hin]) (hno.suffix (hs.suffix.trans (List.suffix_cons _ _))) with ⟨i1, ps2, i2, i3⟩ | ⟨i1, l, ls1, e, i2, i3, toks1, ps2, i4⟩
      · exact Or.inl ⟨by rcases h1 with h1 | h1 <;> rcases i1 with i1 | i1 <;> simp_all, ps2, .next _ _ _ _ _ _ _ _ _ _ h2 i2, h3.trans i3⟩
      · rcases h1 with rfl | h1
        · exact Or.inr ⟨i1, l, ls1, e, by rw [i2]; rfl, i3, toks1, ps2, .next _ _ _ _ _ _ _ _ _ _ h2 i4⟩
        · rw [h1] at i1; cases i1
    · exact Or.inr ⟨h1, l, ls1 ++ ls', e, by rw [h2]; rfl, h3, toks1, ps, .fail _ _ _ _ _ _ _ h4⟩
  | @block c t d trailing b lb ds ls toks toks' toks2 rest hs hk hk2 ihb ih =>
    intro ctx ps hv hin hno
    subst hv
    obtain ⟨args, comments, t', hd, h2, h3⟩ := hs.step (env := env) (configDir := configDir) (file := file) hcomb (hno.head hs) ps
    have hq := enterBlockCtx_quiet d ctx ps hin
    have hn1 := hno.suffix (hs.suffix.trans (List.suffix_cons _ _))
    rcases ihb (enterBlockCtx d ctx ps).1 (enterBlockCtx d ctx ps).2 (enterBlockCtx_vals d ctx ps) (by rw [hq.includes, hin]) hn1 with
      ⟨i1, ps2, i2, i3⟩ | ⟨i1, l, ls1, e, i2, i3, toks1, ps2, i4⟩
    · rcases ih ctx ps2 rfl (by rw [i3.includes, hq.includes, hin]) (hn1.suffix hk.suffix) with ⟨j1, ps3, j2, j3⟩ | ⟨j1, l, ls1, e, j2, j3, toks1, ps3, j4⟩
      · refine Or.inl ⟨by rcases j1 with j1 | j1 <;> rcases i1 with i1 | i1 <;> simp_all, ps3, ?_, (hq.noted.trans i3).trans j3⟩
        have := RunOk.block _ _ _ _ _ _ _ _ _ _ _ _ _ _ h2 i2 j2
        rw [h3] at this
        exact this
      · rcases i1 with rfl | i1
        · exact Or.inr ⟨j1, l, ls1, e, by rw [j2]; rfl, j3, toks1, ps3, .after _ _ _ _ _ _ _ _ _ _ _ _ _ _ h2 i2 j4⟩
        · rw [i1] at j1; cases j1
    · exact Or.inr ⟨i1, l, ls1 ++ ls, e, by rw [i2]; rfl, i3, toks1, ps2, .inside _ _ _ _ _ _ _ _ _ _ _ h2 i4⟩

/-- The error that ends a run. -/
def EndsBy (e : Option GoErr) : Option (Option Int) → Prop
  | some line => ∃ e', e = some e' ∧ e'.line? = line
  | none => e = none

theorem Spec.Breaks.run {env : Env} {o : ParseOptions} {configDir file : Str} (hcomb : o.combineConfigs = false) {N : List Str → Option (List Str)}
    {c : List Str} {ls : List Int} {last : Option (Option Int)} {toks : List Tok} (h : Breaks (rulesOf o N) c ls last toks) :
    ∀ (ctx : Ctx) (ps : PS), ctx.vals = c → ps.includes = [] → NoInclude o toks →
    Unless o ls (∃ e toks' ps', RunFail env o configDir file ctx toks ps e toks' ps' ∧ Noted o file ls ps ps' ∧ EndsBy e last)
      fun e => ∃ toks' ps', RunFail env o configDir file ctx toks ps (some e) toks' ps' := by
  induction h with
  | broken hs =>
    intro ctx ps hv _ hno
    subst hv
    obtain ⟨e, toks', h1, h2⟩ := hs.step (env := env) (configDir := configDir) (file := file) hcomb (hno.head hs) ps
    exact Unless.quiet ⟨_, _, _, .fail _ _ _ _ _ _ _ h1, Noted.refl ps, e, rfl, h2⟩
  | crash hs =>
    intro ctx ps hv _ hno
    subst hv
    obtain ⟨toks', h1⟩ := hs.step (env := env) (configDir := configDir) (file := file) hcomb (hno.head hs) ps
    exact Unless.quiet ⟨_, _, _, .fail _ _ _ _ _ _ _ h1, Noted.refl ps, rfl⟩
  | @on c t ds ls ls' last toks toks' hs hk ih =>
    intro ctx ps hv hin hno
    subst hv
    rcases hs.step (env := env) (configDir := configDir) (file := file) hcomb (hno.head hs) ps with ⟨h1, ps1, h2, h3⟩ | ⟨h1, l, ls1, e, h2, h3, toks1, h4⟩
    · rcases ih ctx ps1 rfl (by rw [h3.includes, hin]) (hno.suffix (hs.suffix.trans (List.suffix_cons _ _))) with
        ⟨i1, e, toks2, ps2, i2, i3, i4⟩ | ⟨i1, l, ls1, e, i2, i3, toks1, ps2, i4⟩
      · exact Or.inl ⟨by rcases h1 with h1 | h1 <;> rcases i1 with i1 | i1 <;> simp_all, e, toks2, ps2, .next _ _ _ _ _ _ _ _ _ _ h2 i2, h3.trans i3, i4⟩
      · rcases h1 with rfl | h1
        · exact Or.inr ⟨i1, l, ls1, e, by rw [i2]; rfl, i3, toks1, ps2, .next _ _ _ _ _ _ _ _ _ _ h2 i4⟩
        · rw [h1] at i1; cases i1
    · exact Or.inr ⟨h1, l, ls1 ++ ls', e, by rw [h2]; rfl, h3, toks1, ps, .fail _ _ _ _ _ _ _ h4⟩
  | @inside c t d trailing lb last toks toks' hs hk ih =>
    intro ctx ps hv hin hno
    subst hv
    obtain ⟨args, comments, t', hd, h2, h3⟩ := hs.step (env := env) (configDir := configDir) (file := file) hcomb (hno.head hs) ps
    have hq := enterBlockCtx_quiet d ctx ps hin
    have hn1 := hno.suffix (hs.suffix.trans (List.suffix_cons _ _))
    rcases ih (enterBlockCtx d ctx ps).1 (enterBlockCtx d ctx ps).2 (enterBlockCtx_vals d ctx ps) (by rw [hq.includes, hin]) hn1 with
      ⟨i1, e, toks2, ps2, i2, i3, i4⟩ | ⟨i1, l, ls1, e, i2, i3, toks1, ps2, i4⟩
    · exact Or.inl ⟨i1, e, toks2, ps2, .inside _ _ _ _ _ _ _ _ _ _ _ h2 i2, hq.noted.trans i3, i4⟩
    · exact Or.inr ⟨i1, l, ls1, e, i2, i3, toks1, ps2, .inside _ _ _ _ _ _ _ _ _ _ _ h2 i4⟩
  | @after c t d trailing b lb ls last toks toks' toks2 hs hk hk2 ih =>
    intro ctx ps hv hin hno
    subst hv
    obtain ⟨args, comments, t', hd, h2, h3⟩ := hs.step (env := env) (configDir := configDir) (file := file) hcomb (hno.head hs) ps
    have hq := enterBlockCtx_quiet d ctx ps hin
    have hn1 := hno.suffix (hs.suffix.trans (List.suffix_cons _ _))
    rcases hk.run (env := env) (configDir := configDir) (file := file) hcomb (enterBlockCtx d ctx ps).1 (enterBlockCtx d ctx ps).2 (enterBlockCtx_vals d ctx ps)
        (by rw [hq.includes, hin]) hn1 with ⟨i1, ps2, i2, i3⟩ | ⟨i1, l, ls1, e, i2, i3, toks1, ps2, i4⟩
    · rcases ih ctx ps2 rfl (by rw [i3.includes, hq.includes, hin]) (hn1.suffix hk.suffix) with
        ⟨j1, e, toks3, ps3, j2, j3, j4⟩ | ⟨j1, l, ls1, e, j2, j3, toks1, ps3, j4⟩
      · exact Or.inl ⟨by rcases j1 with j1 | j1 <;> rcases i1 with i1 | i1 <;> simp_all, e, toks3, ps3, .after _ _ _ _ _ _ _ _ _ _ _ _ _ _ h2 i2 j2,
          (hq.noted.trans i3).trans j3, j4⟩
      · rcases i1 with rfl | i1
        · exact Or.inr ⟨j1, l, ls1, e, by rw [j2]; rfl, j3, toks1, ps3, .after _ _ _ _ _ _ _ _ _ _ _ _ _ _ h2 i2 j4⟩
        · rw [i1] at j1; cases j1
    · exact Or.inr ⟨i1, l, ls1 ++ ls, e, by rw [i2]; rfl, i3, toks1, ps2, .inside _ _ _ _ _ _ _ _ _ _ _ h2 i4⟩

end Verif
