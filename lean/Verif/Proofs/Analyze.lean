import Verif.Model.Analyze
import Verif.Spec.Masks
import Mathlib.Data.Nat.Bitwise
import Mathlib.Tactic.FinCases
import Mathlib.Tactic.Tauto
import Mathlib.Tactic.ByContra
/-!
# Lemmas about the statement check
-/
namespace Verif
open Spec

theorem and_pow_ne (m i : Nat) : (m &&& 2 ^ i) ≠ 0 ↔ m.testBit i = true := by
  rw [Nat.and_two_pow]
  cases m.testBit i <;> simp

theorem flag_bit (m : Nat) : ((m &&& ngxConfFlag) != 0) = m.testBit 10 := by
  rw [Bool.eq_iff_iff, bne_iff_ne]; exact and_pow_ne m 10
theorem any_bit (m : Nat) : ((m &&& ngxConfAny) != 0) = m.testBit 11 := by
  rw [Bool.eq_iff_iff, bne_iff_ne]; exact and_pow_ne m 11
theorem more1_bit (m : Nat) : ((m &&& ngxConf1More) != 0) = m.testBit 12 := by
  rw [Bool.eq_iff_iff, bne_iff_ne]; exact and_pow_ne m 12
theorem more2_bit (m : Nat) : ((m &&& ngxConf2More) != 0) = m.testBit 13 := by
  rw [Bool.eq_iff_iff, bne_iff_ne]; exact and_pow_ne m 13
theorem block_bit (m : Nat) : ((m &&& ngxConfBlock) != 0) = m.testBit 8 := by
  rw [Bool.eq_iff_iff, bne_iff_ne]; exact and_pow_ne m 8
theorem block_bit' (m : Nat) : ((m &&& ngxConfBlock) == 0) = !m.testBit 8 := by
  rw [← block_bit]; simp [bne]
theorem expr_bit (m : Nat) : decide ((m &&& ngxConfExpr) > 0) = m.testBit 9 := by
  rw [Bool.eq_iff_iff, decide_eq_true_iff, gt_iff_lt, Nat.pos_iff_ne_zero]; exact and_pow_ne m 9
theorem take_bit (m n : Nat) : (((m >>> n) &&& 1) != 0) = m.testBit n := by
  rw [Nat.testBit, Nat.and_comm]


theorem lowerChar_eq_iff (c : Char) (n : Nat) (h1 : 97 ≤ n) (h2 : n ≤ 122) :
    lowerChar c = Char.ofNat n ↔ c = Char.ofNat n ∨ c = Char.ofNat (n - 32) := by
  have hv : ∀ m, m ≤ 200 → (Char.ofNat m).toNat = m := by
    intro m hm
    have : m.isValidChar := Or.inl (by omega)
    simp [Char.ofNat, this, Char.toNat, Char.ofNatAux]
  have hinj : ∀ a b : Char, a.toNat = b.toNat → a = b := fun a b h => Char.toNat_inj.mp h
  unfold lowerChar
  have hle : ∀ a b : Char, a ≤ b ↔ a.toNat ≤ b.toNat := fun a b => Iff.rfl
  have hA : 'A'.toNat = 65 := rfl
  have hZ : 'Z'.toNat = 90 := rfl
  by_cases h : 65 ≤ c.toNat ∧ c.toNat ≤ 90
  · have : ('A' ≤ c && c ≤ 'Z') = true := by simp [hle, hA, hZ, h]
    rw [if_pos this]
    constructor
    · intro he
      right
      apply hinj
      have := congrArg Char.toNat he
      rw [hv _ (by omega), hv _ (by omega)] at this
      rw [hv _ (by omega)]; omega
    · rintro (rfl | rfl)
      · rw [hv _ (by omega)] at h; omega
      · rw [hv _ (by omega)]; congr 1; omega
  · have : ¬ ('A' ≤ c && c ≤ 'Z') = true := by simp [hle, hA, hZ]; omega
    rw [if_neg this]
    constructor
    · exact Or.inl
    · rintro (rfl | rfl)
      · rfl
      · rw [hv _ (by omega)] at h; omega

theorem lower_o (c : Char) : lowerChar c = 'o' ↔ c = 'o' ∨ c = 'O' := lowerChar_eq_iff c 111 (by omega) (by omega)
theorem lower_n (c : Char) : lowerChar c = 'n' ↔ c = 'n' ∨ c = 'N' := lowerChar_eq_iff c 110 (by omega) (by omega)
theorem lower_f (c : Char) : lowerChar c = 'f' ↔ c = 'f' ∨ c = 'F' := lowerChar_eq_iff c 102 (by omega) (by omega)

theorem validFlag_iff (v : Str) : validFlag v = true ↔ OnOff v := by
  unfold validFlag OnOff
  match v with
  | [] => simp [toLower]
  | [a] => simp [toLower]
  | [a, b] => simp [toLower, lower_o, lower_n]
  | [a, b, c] => simp [toLower, lower_o, lower_f]
  | a :: b :: c :: d :: r => simp [toLower]

theorem hasValidArguments_iff (m : Nat) (args : List Str) : hasValidArguments m args = true ↔ ArgsOk m args := by
  unfold hasValidArguments ArgsOk
  simp only [take_bit, flag_bit, any_bit, more1_bit, more2_bit, Bool.or_eq_true, Bool.and_eq_true, decide_eq_true_iff,
    beq_iff_eq]
  have h : (m.testBit 10 = true ∧ args.length = 1) ∧ validFlag (args.headD []) = true ↔
      m.testBit 10 = true ∧ ∃ v, args = [v] ∧ OnOff v := by
    match args with
    | [] => simp
    | [a] => simp [validFlag_iff]
    | a :: b :: r => simp
  rw [h, and_comm (a := m.testBit args.length = true)]
  simp only [or_assoc, ge_iff_le]

theorem hasPrefix_paren (b : Str) : hasPrefix b c!"(" = true ↔ ∃ r, b = '(' :: r := by
  cases b <;> simp [hasPrefix, List.isPrefixOf, @eq_comm Char '(']

theorem hasSuffix_paren (b : Str) : hasSuffix b c!")" = true ↔ ∃ r, b = r ++ [')'] := by
  unfold hasSuffix
  rw [List.isSuffixOf_iff_suffix]
  exact ⟨fun ⟨r, h⟩ => ⟨r, h.symm⟩, fun ⟨r, h⟩ => ⟨r, h.symm⟩⟩

theorem validExpr_iff (args : List Str) : validExpr args = true ↔ InParens args := by
  unfold validExpr InParens
  match args with
  | [] => simp
  | [a] => simp [hasPrefix_paren, hasSuffix_paren]; tauto
  | [a, b] =>
    simp only [List.head?_cons, List.getLast?_cons_cons, List.getLast?_singleton, List.length_cons, List.length_nil,
      Bool.and_eq_true, hasPrefix_paren, hasSuffix_paren, Bool.or_eq_true, decide_eq_true_iff, beq_iff_eq]
    constructor
    · rintro ⟨⟨⟨-, ⟨r, rfl⟩⟩, ⟨r', rfl⟩⟩, h⟩
      refine ⟨_, _, rfl, rfl, ⟨r, rfl⟩, ⟨r', rfl⟩, Or.inr ?_⟩
      simp at h ⊢; omega
    · rintro ⟨f, l, hf, hl, ⟨r, rfl⟩, ⟨r', rfl⟩, h⟩
      obtain rfl := Option.some.inj hf
      obtain rfl := Option.some.inj hl
      refine ⟨⟨⟨by omega, ⟨r, rfl⟩⟩, ⟨r', rfl⟩⟩, ?_⟩
      simp at h ⊢; omega
  | a :: b :: c :: r =>
    obtain ⟨l, hl⟩ : ∃ l, (a :: b :: c :: r).getLast? = some l := by simp [List.getLast?_cons]
    rw [hl]
    simp only [List.head?_cons, Bool.and_eq_true, hasPrefix_paren, hasSuffix_paren, Bool.or_eq_true,
      decide_eq_true_iff, beq_iff_eq, List.length_cons]
    constructor
    · rintro ⟨⟨⟨-, h1⟩, h2⟩, -⟩
      exact ⟨_, _, rfl, rfl, h1, h2, Or.inl (by omega)⟩
    · rintro ⟨f, l', hf, hl, h1, h2, -⟩
      obtain rfl := Option.some.inj hf
      obtain rfl := Option.some.inj hl
      exact ⟨⟨⟨by omega, h1⟩, h2⟩, Or.inr (by omega)⟩

theorem checkMasks_none (stmt : Directive) (term what : Str) (ms : List Nat) :
    checkMasks stmt term what ms = none ↔ ∃ m ∈ ms, MaskOk m term stmt.args := by
  induction ms generalizing what with
  | nil => simp [checkMasks]
  | cons m ms ih =>
    simp only [List.mem_cons, exists_eq_or_imp]
    unfold checkMasks
    have he := expr_bit m
    rw [expr_bit, block_bit, block_bit', flag_bit]
    generalize (∃ m, m ∈ ms ∧ MaskOk m term stmt.args) = P at ih ⊢
    unfold MaskOk
    split
    · rename_i h
      rw [ih]
      simp only [Bool.and_eq_true, Bool.not_eq_true', ← Bool.not_eq_true, validExpr_iff] at h
      constructor
      · exact Or.inr
      · rintro (h' | h')
        · exact absurd (h'.1 h.1) h.2
        · exact h'
    · rename_i h0
      simp only [Bool.and_eq_true, Bool.not_eq_true', ← Bool.not_eq_true, validExpr_iff, not_and, not_not] at h0
      split
      · rename_i h
        rw [ih]
        simp only [Bool.and_eq_true, bne_iff_ne] at h
        simp [h.1, h.2]
      · rename_i h1
        split
        · rename_i h
          rw [ih]
          simp only [Bool.and_eq_true, bne_iff_ne, Bool.not_eq_true'] at h
          simp [h.1, h.2]
        · rename_i h2
          have ht : if m.testBit 8 = true then term = c!"{" else term = c!";" := by
            simp only [Bool.and_eq_true, bne_iff_ne, Bool.not_eq_true'] at h1 h2
            cases hb : m.testBit 8 <;> simp_all
          split
          · rename_i h
            rw [hasValidArguments_iff] at h
            simp only [true_iff]
            exact Or.inl ⟨h0, ht, h⟩
          · rename_i h
            rw [hasValidArguments_iff] at h
            have : ∀ P, P ↔ ((m.testBit 9 = true → InParens stmt.args) ∧
              (if m.testBit 8 = true then term = c!"{" else term = c!";") ∧ ArgsOk m stmt.args) ∨ P := by
              intro P; tauto
            split
            · rw [ih]; exact this _
            · rw [ih]; exact this _

/-! ## Contexts -/

/-- Block names that `blockCtx.key` keeps apart. -/
def PlainPath (ctx : List Str) : Prop := (∀ b ∈ ctx, '>' ∉ b) ∧ ctx ≠ [[]]

theorem split_first {a b : Str} {x y : Str} (ha : '>' ∉ a) (hb : '>' ∉ b) (h : a ++ '>' :: x = b ++ '>' :: y) :
    a = b ∧ x = y := by
  induction a generalizing b with
  | nil =>
    cases b with
    | nil => simpa using h
    | cons c b => simp at h hb; exact absurd h.1 hb.1
  | cons c a ih =>
    cases b with
    | nil => simp at h ha; exact absurd h.1.symm ha.1
    | cons d b =>
      simp only [List.cons_append, List.cons.injEq] at h
      simp only [List.mem_cons, not_or] at ha hb
      obtain ⟨h1, h2⟩ := ih ha.2 hb.2 h.2
      exact ⟨by rw [h.1, h1], h2⟩

theorem ctxKey_cons (a b : Str) (l : List Str) : ctxKey (a :: b :: l) = a ++ '>' :: ctxKey (b :: l) := by
  simp [ctxKey, joinStr]

theorem ctxKey_one (a : Str) : ctxKey [a] = a := rfl

theorem ctxKey_ne_inj {p q : List Str} (hp : p ≠ []) (hq : q ≠ []) (h1 : ∀ b ∈ p, '>' ∉ b) (h2 : ∀ b ∈ q, '>' ∉ b)
    (h : ctxKey p = ctxKey q) : p = q := by
  induction p generalizing q with
  | nil => exact absurd rfl hp
  | cons a p ih =>
    cases q with
    | nil => exact absurd rfl hq
    | cons b q =>
      have ha := h1 a (by simp)
      have hb := h2 b (by simp)
      cases p with
      | nil =>
        cases q with
        | nil => simpa [ctxKey_one] using h
        | cons b2 q =>
          rw [ctxKey_one, ctxKey_cons] at h
          rw [h] at ha; simp at ha
      | cons a2 p =>
        cases q with
        | nil =>
          rw [ctxKey_one, ctxKey_cons] at h
          rw [← h] at hb; simp at hb
        | cons b2 q =>
          rw [ctxKey_cons, ctxKey_cons] at h
          obtain ⟨e1, e2⟩ := split_first ha hb h
          rw [e1, ih (by simp) (by simp) (fun b hb => h1 b (by simp only [List.mem_cons] at hb ⊢; tauto))
            (fun b hb => h2 b (by simp only [List.mem_cons] at hb ⊢; tauto)) e2]

theorem ctxKey_inj {p q : List Str} (hp : PlainPath p) (hq : PlainPath q) (h : ctxKey p = ctxKey q) : p = q := by
  have key : ∀ r : List Str, PlainPath r → ctxKey r = [] → r = [] := by
    intro r hr h
    match r with
    | [] => rfl
    | [a] => rw [ctxKey_one] at h; subst h; exact absurd rfl hr.2
    | a :: b :: l => rw [ctxKey_cons] at h; simp at h
  by_cases h1 : p = []
  · subst h1; exact (key q hq h.symm).symm
  by_cases h2 : q = []
  · subst h2; exact key p hp h
  exact ctxKey_ne_inj h1 h2 hp.1 hq.1 h

theorem key_beq {p q : List Str} (hp : PlainPath p) (hq : PlainPath q) : (ctxKey p == ctxKey q) = decide (p = q) := by
  rw [Bool.eq_iff_iff, beq_iff_eq, decide_eq_true_iff]
  exact ⟨ctxKey_inj hp hq, fun h => by rw [h]⟩

theorem contexts_lookup {ctx : List Str} (h : PlainPath ctx) :
    contexts.lookup (ctxKey ctx) = (contextBit ctx).map (2 ^ ·) := by
  have pl : ∀ q : List Str, decide ((∀ b ∈ q, '>' ∉ b) ∧ q ≠ [[]]) = true → PlainPath q :=
    fun q h => by unfold PlainPath; exact of_decide_eq_true h
  have kb := fun q hq => key_beq h (pl q hq)
  unfold contexts
  simp only [List.lookup_cons]
  rw [kb [] (by decide), kb [c!"events"] (by decide), kb [c!"mail"] (by decide), kb [c!"mail", c!"server"] (by decide),
    kb [c!"stream"] (by decide), kb [c!"stream", c!"server"] (by decide), kb [c!"stream", c!"upstream"] (by decide),
    kb [c!"http"] (by decide), kb [c!"http", c!"server"] (by decide), kb [c!"http", c!"location"] (by decide),
    kb [c!"http", c!"upstream"] (by decide), kb [c!"http", c!"server", c!"if"] (by decide),
    kb [c!"http", c!"location", c!"if"] (by decide), kb [c!"http", c!"location", c!"limit_except"] (by decide),
    kb [c!"mgmt"] (by decide), kb [c!"http", c!"oidc_provider"] (by decide)]
  by_cases hk : ctx ∈ [[], [c!"events"], [c!"mail"], [c!"mail", c!"server"], [c!"stream"], [c!"stream", c!"server"],
      [c!"stream", c!"upstream"], [c!"http"], [c!"http", c!"server"], [c!"http", c!"location"], [c!"http", c!"upstream"],
      [c!"http", c!"server", c!"if"], [c!"http", c!"location", c!"if"], [c!"http", c!"location", c!"limit_except"],
      [c!"mgmt"], [c!"http", c!"oidc_provider"]]
  · fin_cases hk <;> rfl
  · simp only [List.mem_cons, not_or, List.not_mem_nil, not_false_eq_true, and_true] at hk
    unfold contextBit
    simp [hk]

/-! ## Sources -/

/-- The sources in use: the default directives when none are given. -/
def sourcesOf (o : ParseOptions) : List MatchFunc :=
  if o.directiveSources = [] then [defaultDirectivesMatch] else o.directiveSources

theorem fold_sources (fs : List MatchFunc) (name : Str) (acc : Option (List Nat)) :
    let r := fs.foldl (fun acc f => match f name with | some ms => some (acc.getD [] ++ ms) | none => acc) acc
    (r.isSome = true ↔ acc.isSome = true ∨ Known fs name) ∧
    ∀ m, m ∈ r.getD [] ↔ m ∈ acc.getD [] ∨ HasMask fs name m := by
  induction fs generalizing acc with
  | nil => simp [Known, HasMask]
  | cons f fs ih =>
    simp only [List.foldl_cons]
    obtain ⟨i1, i2⟩ := ih (match f name with | some ms => some (acc.getD [] ++ ms) | none => acc)
    refine ⟨i1.trans ?_, fun m => (i2 m).trans ?_⟩
    · cases h : f name <;> simp [Known, h]
    · cases h : f name <;> simp [HasMask, h, or_assoc]

theorem lookupMasks_spec (o : ParseOptions) (name : Str) :
    ((lookupMasks o name).isSome = true ↔ Known (sourcesOf o) name) ∧
    ∀ m, m ∈ (lookupMasks o name).getD [] ↔ HasMask (sourcesOf o) name m := by
  unfold lookupMasks sourcesOf
  by_cases h : o.directiveSources = []
  · simp only [h, List.length_nil, beq_self_eq_true, if_true]
    refine ⟨by simp [Known], fun m => ?_⟩
    cases h : defaultDirectivesMatch name <;> simp [HasMask, h]
  · have : (o.directiveSources.length == 0) = false := by
      cases hl : o.directiveSources
      · exact absurd hl h
      · rfl
    simp only [this, h, if_false]
    have := fold_sources o.directiveSources name none
    simp only [Option.isSome_none, Bool.false_eq_true, false_or, Option.getD_none, List.not_mem_nil] at this
    exact this

theorem bit_filter (m b : Nat) : ((m &&& 2 ^ b) != 0) = m.testBit b := by
  rw [Bool.eq_iff_iff, bne_iff_ne]; exact and_pow_ne m b

theorem analyze_iff (fname : Str) (stmt : Directive) (term : Str) (ctx : List Str) (o : ParseOptions) (bit : Option Nat)
    (hb : contexts.lookup (ctxKey ctx) = bit.map (2 ^ ·)) :
    analyze fname stmt term ctx o = none ↔
    StmtOk (sourcesOf o) o.errorOnUnknownDirectives o.skipDirectiveContextCheck o.skipDirectiveArgsCheck bit
      stmt.directive stmt.args term := by
  obtain ⟨hk, hm⟩ := lookupMasks_spec o stmt.directive
  unfold StmtOk analyze
  rw [hb]
  cases hl : lookupMasks o stmt.directive with
  | none =>
    rw [hl] at hk
    have hk' : ¬ Known (sourcesOf o) stmt.directive := by rw [← hk]; simp
    cases he : o.errorOnUnknownDirectives <;> cases bit <;> simp [hk']
  | some ms =>
    rw [hl] at hk hm
    have hk' : Known (sourcesOf o) stmt.directive := hk.mp rfl
    simp only [Option.getD_some] at hm
    simp only [Option.isNone_some, Bool.and_false, Bool.false_eq_true, if_false]
    cases bit with
    | none => simp [hk']
    | some b =>
      simp only [Option.map_some, hk', implies_true, forall_const, true_and, Option.some.injEq]
      have hf : ∀ P : Nat → Prop, (∃ m ∈ ms.filter (fun mask => (mask &&& 2 ^ b) != 0), P m) ↔
          ∃ m, HasMask (sourcesOf o) stmt.directive m ∧ m.testBit b = true ∧ P m := by
        intro P
        simp only [List.mem_filter, bit_filter, hm, and_assoc]
      have hz : (ms.filter (fun mask => (mask &&& 2 ^ b) != 0)).length = 0 ↔
          ¬ ∃ m, HasMask (sourcesOf o) stmt.directive m ∧ m.testBit b = true := by
        have := hf (fun _ => True)
        simp only [and_true] at this
        rw [← this, List.length_eq_zero_iff, List.eq_nil_iff_forall_not_mem]
        simp
      cases hs : o.skipDirectiveContextCheck with
      | true =>
        simp only [Bool.not_true, Bool.false_and, Bool.false_eq_true, if_false, if_true, true_or, true_and]
        cases ha : o.skipDirectiveArgsCheck with
        | true => simp
        | false =>
          have hc := checkMasks_none stmt term [] ms
          simp only [hm] at hc
          cases h : checkMasks stmt term [] ms <;> simp [h] at hc ⊢
          · exact hc
          · exact hc
      | false =>
        simp only [Bool.not_false, Bool.true_and, Bool.false_eq_true, if_false, false_or]
        have hc := checkMasks_none stmt term [] (ms.filter (fun mask => (mask &&& 2 ^ b) != 0))
        rw [hf] at hc
        by_cases hz' : (ms.filter (fun mask => (mask &&& 2 ^ b) != 0)).length = 0
        · rw [if_pos (by simpa using hz')]
          simp [hz.mp hz']
        · rw [if_neg (by simpa using hz')]
          have hz'' : ∃ m, HasMask (sourcesOf o) stmt.directive m ∧ m.testBit b = true := by
            rw [hz] at hz'; exact not_not.mp hz'
          cases ha : o.skipDirectiveArgsCheck with
          | true => simpa using hz''
          | false =>
            cases h : checkMasks stmt term [] (ms.filter (fun mask => (mask &&& 2 ^ b) != 0)) with
            | none => simpa [h, hz''] using hc
            | some w =>
              rw [h] at hc
              simp [hz''] at hc ⊢
              exact hc

theorem lookup_bit (ctx : List Str) : ∃ bit : Option Nat, contexts.lookup (ctxKey ctx) = bit.map (2 ^ ·) := by
  have : ∀ (l : List (Str × Nat)) (k : Str), (∀ e ∈ l, ∃ b, e.2 = 2 ^ b) → ∃ bit : Option Nat, l.lookup k = bit.map (2 ^ ·) := by
    intro l k
    induction l with
    | nil => intro _; exact ⟨none, rfl⟩
    | cons e l ih =>
      intro h
      rw [List.lookup_cons]
      split
      · obtain ⟨b, hb⟩ := h e (by simp)
        exact ⟨some b, by simp [hb]⟩
      · exact ih (fun e he => h e (by simp [he]))
  apply this
  intro e he
  unfold contexts at he
  fin_cases he
  exacts [⟨18, rfl⟩, ⟨19, rfl⟩, ⟨20, rfl⟩, ⟨21, rfl⟩, ⟨22, rfl⟩, ⟨23, rfl⟩, ⟨24, rfl⟩, ⟨25, rfl⟩, ⟨26, rfl⟩, ⟨27, rfl⟩,
    ⟨28, rfl⟩, ⟨29, rfl⟩, ⟨30, rfl⟩, ⟨31, rfl⟩, ⟨17, rfl⟩, ⟨32, rfl⟩]

theorem argsOk_pow {i : Nat} (hi : i ≤ 7) (args : List Str) : ArgsOk (2 ^ i) args ↔ args.length = i := by
  unfold ArgsOk
  simp only [Nat.testBit_two_pow, decide_eq_true_iff]
  constructor
  · rintro (⟨-, h⟩ | ⟨h, -⟩ | h | ⟨h, -⟩ | ⟨h, -⟩) <;> omega
  · rintro rfl; exact Or.inl ⟨hi, rfl⟩

theorem argsOk_noArgs (args : List Str) : ArgsOk ngxConfNoArgs args ↔ args.length = 0 :=
  argsOk_pow (i := 0) (by omega) args
theorem argsOk_take1 (args : List Str) : ArgsOk ngxConfTake1 args ↔ args.length = 1 :=
  argsOk_pow (i := 1) (by omega) args
theorem argsOk_1more (args : List Str) : ArgsOk ngxConf1More args ↔ 1 ≤ args.length := by
  change ArgsOk (2 ^ 12) args ↔ _
  unfold ArgsOk
  simp only [Nat.testBit_two_pow, decide_eq_true_iff]
  constructor
  · rintro (⟨h', h⟩ | ⟨h, -⟩ | h | ⟨h, h'⟩ | ⟨h, -⟩) <;> omega
  · intro h; right; right; right; left; exact ⟨trivial, h⟩

theorem analyzeMapBody_iff {fname : Str} {d : Directive} {term blk : Str} {masks : MapParameterMasks}
    (hl : mapBodies.lookup blk = some masks) :
    analyzeMapBody fname d term blk = none ↔
    term = c!";" ∧ ArgsOk ((masks.special.lookup d.directive).getD masks.default) d.args := by
  unfold analyzeMapBody
  rw [hl]
  by_cases ht : term = c!";"
  · subst ht
    simp only [bne_self_eq_false, Bool.false_eq_true, if_false, true_and]
    cases hs : masks.special.lookup d.directive <;> simp [hasValidArguments_iff]
  · simp [ht]

theorem analyze_some {fname : Str} {stmt : Directive} {term : Str} {ctx : List Str} {o : ParseOptions} {e : ParseError}
    (h : analyze fname stmt term ctx o = some e) :
    ∃ w, e = stmtError w fname stmt (getLastBlock ctx) ∧
    (w = c!"unknown directive \"" ++ stmt.directive ++ c!"\"" ∨
     w = c!"\"" ++ stmt.directive ++ c!"\" directive is not allowed here" ∨
     ∃ masks ms, lookupMasks o stmt.directive = some masks ∧
       (ms = [] → o.skipDirectiveContextCheck = true ∧ masks = []) ∧ checkMasks stmt term [] ms = some w) := by
  unfold analyze at h
  generalize hc : contexts.lookup (ctxKey ctx) = cur at h
  generalize hl : lookupMasks o stmt.directive = known at h
  simp only at h
  by_cases h1 : (o.errorOnUnknownDirectives && known.isNone) = true
  · rw [if_pos h1] at h
    exact ⟨_, (Option.some.inj h).symm, Or.inl rfl⟩
  · rw [if_neg h1] at h
    cases cur with
    | none => cases h
    | some cur =>
      cases known with
      | none => cases h
      | some masks =>
        simp only at h
        generalize hms : (if o.skipDirectiveContextCheck = true then masks else
              masks.filter (fun mask => (mask &&& cur) != 0)) = ms at h
        by_cases h2 : (!o.skipDirectiveContextCheck && ms.length == 0) = true
        · rw [if_pos h2] at h
          exact ⟨_, (Option.some.inj h).symm, Or.inr (Or.inl rfl)⟩
        · rw [if_neg h2] at h
          by_cases h3 : o.skipDirectiveArgsCheck = true
          · rw [if_pos h3] at h; cases h
          · rw [if_neg h3] at h
            cases hw : checkMasks stmt term [] ms with
            | none => rw [hw] at h; cases h
            | some w =>
              rw [hw] at h
              refine ⟨w, (Option.some.inj h).symm, Or.inr (Or.inr ⟨masks, ms, rfl, ?_, hw⟩)⟩
              rintro rfl
              cases hs : o.skipDirectiveContextCheck with
              | true => rw [hs] at hms; exact ⟨rfl, by simpa using hms⟩
              | false => simp [hs] at h2

end Verif
