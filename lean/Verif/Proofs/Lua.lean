import Verif.Model.Lua
import Verif.Spec.LuaCode
import Verif.Proofs.LexBasic
/-!
# The Lua lexer on blocks
-/
namespace Verif
open Spec

/-- The code that closes `k` more braces than it opens, starting in quote `q`. -/
def Closes (k : Nat) (q : Option Char) (code : Str) : Prop :=
  openQuote q code = none ∧ (∀ p, p <+: unquoted q code → p.count '}' ≤ k + p.count '{') ∧ (unquoted q code).count '}' = k + (unquoted q code).count '{'

theorem closes_zero (code : Str) : Closes 0 none code ↔ LuaCode code := by
  unfold Closes LuaCode Balanced
  simp

theorem scanLine_eq (line : Int) (c : Char) : scanLine line c = line + nls [c] := by
  unfold scanLine
  rw [nls_single]
  by_cases h : c = '\n' <;> simp [h]

theorem closes_nil {k : Nat} {q : Option Char} : Closes k q [] ↔ q = none ∧ k = 0 := by
  unfold Closes
  cases q <;> simp [openQuote, unquoted]
  omega

theorem closes_open {k : Nat} {cs : Str} : Closes k none ('{' :: cs) ↔ Closes (k + 1) none cs := by
  have e1 : openQuote none ('{' :: cs) = openQuote none cs := by rw [openQuote]; rw [if_neg (by decide)]
  have e2 : unquoted none ('{' :: cs) = '{' :: unquoted none cs := by rw [unquoted]; rw [if_neg (by decide)]
  unfold Closes
  rw [e1, e2]
  refine and_congr Iff.rfl (and_congr ?_ ?_)
  · constructor
    · intro h p hp
      have := h ('{' :: p) (by simpa using hp)
      simp only [List.count_cons_self, List.count_cons_of_ne (by decide : ('{' : Char) ≠ '}')] at this
      omega
    · intro h p hp
      cases p with
      | nil => simp
      | cons x xs =>
        obtain ⟨rfl, hp'⟩ := List.cons_prefix_cons.mp hp
        have := h xs hp'
        simp only [List.count_cons_self, List.count_cons_of_ne (by decide : ('{' : Char) ≠ '}')]
        omega
  · simp only [List.count_cons_self, List.count_cons_of_ne (by decide : ('{' : Char) ≠ '}')]
    omega

theorem closes_close {k : Nat} {cs : Str} : Closes k none ('}' :: cs) ↔ ∃ j, k = j + 1 ∧ Closes j none cs := by
  have e1 : openQuote none ('}' :: cs) = openQuote none cs := by rw [openQuote]; rw [if_neg (by decide)]
  have e2 : unquoted none ('}' :: cs) = '}' :: unquoted none cs := by rw [unquoted]; rw [if_neg (by decide)]
  unfold Closes
  rw [e1, e2]
  constructor
  · rintro ⟨h1, h2, h3⟩
    have hk := h2 ['}'] (by simp)
    simp at hk
    cases k with
    | zero => omega
    | succ j =>
      refine ⟨j, rfl, h1, ?_, ?_⟩
      · intro p hp
        have := h2 ('}' :: p) (by simpa using hp)
        simp only [List.count_cons_self, List.count_cons_of_ne (by decide : ('}' : Char) ≠ '{')] at this
        omega
      · simp only [List.count_cons_self, List.count_cons_of_ne (by decide : ('}' : Char) ≠ '{')] at h3
        omega
  · rintro ⟨j, rfl, h1, h2, h3⟩
    refine ⟨h1, ?_, ?_⟩
    · intro p hp
      cases p with
      | nil => simp
      | cons x xs =>
        obtain ⟨rfl, hp'⟩ := List.cons_prefix_cons.mp hp
        have := h2 xs hp'
        simp only [List.count_cons_self, List.count_cons_of_ne (by decide : ('}' : Char) ≠ '{')]
        omega
    · simp only [List.count_cons_self, List.count_cons_of_ne (by decide : ('}' : Char) ≠ '{')]
      omega

theorem closes_other {k : Nat} {c : Char} {cs : Str} (h1 : c ≠ '{') (h2 : c ≠ '}') (h3 : c ≠ '"') (h4 : c ≠ '\'') :
    Closes k none (c :: cs) ↔ Closes k none cs := by
  have e1 : openQuote none (c :: cs) = openQuote none cs := by rw [openQuote, if_neg (fun e => e.elim h3 h4)]
  have e2 : unquoted none (c :: cs) = c :: unquoted none cs := by rw [unquoted, if_neg (fun e => e.elim h3 h4)]
  unfold Closes
  rw [e1, e2]
  refine and_congr Iff.rfl (and_congr ?_ ?_)
  · constructor
    · intro h p hp
      have := h (c :: p) (by simpa using hp)
      simpa only [List.count_cons_of_ne h1, List.count_cons_of_ne h2] using this
    · intro h p hp
      cases p with
      | nil => simp
      | cons x xs =>
        obtain ⟨rfl, hp'⟩ := List.cons_prefix_cons.mp hp
        simpa only [List.count_cons_of_ne h1, List.count_cons_of_ne h2] using h xs hp'
  · simp only [List.count_cons_of_ne h1, List.count_cons_of_ne h2]

theorem closes_quote {k : Nat} {c : Char} {cs : Str} (h : c = '"' ∨ c = '\'') : Closes k none (c :: cs) ↔ Closes k (some c) cs := by
  unfold Closes
  rw [openQuote, if_pos h, unquoted, if_pos h]

theorem closes_in {k : Nat} {q c : Char} {cs : Str} : Closes k (some q) (c :: cs) ↔ Closes k (if c = q then none else some q) cs := by
  unfold Closes
  rw [openQuote, unquoted]
  split <;> rfl

/-- The quote of the Lua lexer. -/
def LuaQuote (q : Option Char) (inQuotes : Bool) (quoteType : Str) : Prop :=
  match q with
  | none => inQuotes = false
  | some k => inQuotes = true ∧ quoteType = [k] ∧ (k = '"' ∨ k = '\'')

/-- The result of the loop that collects a block. -/
def luaResult (code : Str) (tok : Str) (line : Int) (n : Nat) : List Tok × Nat :=
  ([{ value := tok ++ code, line := line + nls code, quoted := true }, { value := c!";", line := line + nls code }], n + code.length + 1)

theorem nls_cons (c : Char) (cs : Str) : nls (c :: cs) = nls [c] + nls cs := by
  rw [show c :: cs = [c] ++ cs from rfl, nls_append]

theorem luaResult_cons (c : Char) (code tok : Str) (line : Int) (n : Nat) :
    luaResult (c :: code) tok line n = luaResult code (tok ++ [c]) (line + nls [c]) (n + 1) := by
  unfold luaResult
  rw [nls_cons]
  simp only [List.append_assoc, List.singleton_append, List.length_cons, Int.add_assoc]
  congr 1
  omega

/-- One step of the loop that collects a block, inside it. -/
theorem luaBody_step {k : Nat} {q : Option Char} {inQ : Bool} {qt : Str} (hq : LuaQuote q inQ qt) (tok : Str) (line : Int) (n : Nat) (c : Char) (cs : Str) :
    (∃ k' q' inQ' qt', LuaQuote q' inQ' qt' ∧ (∀ code, Closes k q (c :: code) ↔ Closes k' q' code) ∧ ¬ (q = none ∧ k = 0 ∧ c = '}') ∧
      luaBody (k + 1 : Nat) inQ qt tok line n (c :: cs) = luaBody (k' + 1 : Nat) inQ' qt' (tok ++ [c]) (line + nls [c]) (n + 1) cs) ∨
    (q = none ∧ k = 0 ∧ c = '}' ∧ luaBody (k + 1 : Nat) inQ qt tok line n (c :: cs) = luaResult [] tok line n) := by
  rw [luaBody]
  simp only [scanLine_eq]
  cases q with
  | none =>
    simp only [LuaQuote] at hq
    subst hq
    simp only [Bool.not_false, Bool.and_true]
    by_cases h1 : c = '{'
    · subst h1
      left
      refine ⟨k + 1, none, false, qt, rfl, fun code => closes_open, by simp, ?_⟩
      simp
      rw [if_pos (by omega)]
    by_cases h2 : c = '}'
    · subst h2
      by_cases hk : k = 0
      · subst hk
        right
        refine ⟨by first | rfl | trivial, by first | rfl | trivial, by first | rfl | trivial, ?_⟩
        simp [luaResult, nls_nil, nls_single]
      · left
        obtain ⟨j, rfl⟩ : ∃ j, k = j + 1 := ⟨k - 1, by omega⟩
        refine ⟨j, none, false, qt, rfl, fun code => ?_, by simp, ?_⟩
        · rw [closes_close]
          constructor
          · rintro ⟨j', e, h⟩
            obtain rfl : j' = j := by omega
            exact h
          · exact fun h => ⟨j, rfl, h⟩
        · rw [if_neg (by decide), if_pos (by decide), if_neg (by push_cast; omega), if_neg (by simp; omega)]
          push_cast
          congr 1
          omega
    · by_cases h3 : c = '"' ∨ c = '\''
      · left
        refine ⟨k, some c, true, [c], And.intro rfl ⟨rfl, h3⟩, fun code => closes_quote h3, by simp [h2], ?_⟩
        rw [if_neg (by simpa using h1), if_neg (by simpa using h2), if_pos (by simpa using h3)]
        first | rfl | exact if_pos trivial | simp
      · left
        refine ⟨k, none, false, qt, rfl, fun code => closes_other h1 h2 (fun e => h3 (Or.inl e)) (fun e => h3 (Or.inr e)), by simp [h2], ?_⟩
        rw [if_neg (by simpa using h1), if_neg (by simpa using h2), if_neg (by simpa using h3), if_neg (by simp; omega), if_neg (by simp; omega)]
  | some x =>
    obtain ⟨rfl, rfl, hx⟩ := hq
    simp only [Bool.not_true, Bool.and_false, Bool.false_eq_true, if_false]
    left
    by_cases h3 : c = '"' ∨ c = '\''
    · by_cases hc : c = x
      · subst hc
        refine ⟨k, none, false, [c], rfl, fun code => by rw [closes_in, if_pos rfl], by simp, ?_⟩
        rw [if_pos (by simpa using h3), if_pos (by simp)]
      · refine ⟨k, some x, true, [x], ⟨rfl, rfl, hx⟩, fun code => by rw [closes_in, if_neg hc], by simp, ?_⟩
        rw [if_pos (by simpa using h3), if_neg (by simpa using hc)]
    · have hc : c ≠ x := by rintro rfl; exact h3 hx
      refine ⟨k, some x, true, [x], ⟨rfl, rfl, hx⟩, fun code => by rw [closes_in, if_neg hc], by simp, ?_⟩
      rw [if_neg (by simpa using h3), if_neg (by simp; omega), if_neg (by simp; omega)]

/-- A block: its code is collected. -/
theorem luaBody_closes (code : Str) : ∀ {k : Nat} {q : Option Char} {inQ : Bool} {qt : Str}, LuaQuote q inQ qt → Closes k q code →
    ∀ (tok : Str) (line : Int) (n : Nat) (rest : Str), luaBody (k + 1 : Nat) inQ qt tok line n (code ++ '}' :: rest) = luaResult code tok line n := by
  induction code with
  | nil =>
    intro k q inQ qt hq hc tok line n rest
    obtain ⟨rfl, rfl⟩ := closes_nil.mp hc
    rcases luaBody_step (k := 0) hq tok line n '}' rest with ⟨_, _, _, _, _, _, h, _⟩ | ⟨_, _, _, h⟩
    · exact absurd ⟨rfl, rfl, rfl⟩ h
    · exact h
  | cons c code ih =>
    intro k q inQ qt hq hc tok line n rest
    rcases luaBody_step (k := k) hq tok line n c (code ++ '}' :: rest) with ⟨k', q', inQ', qt', hq', h1, _, h2⟩ | ⟨rfl, rfl, rfl, _⟩
    · rw [List.cons_append, h2, ih hq' ((h1 code).mp hc), luaResult_cons]
    · obtain ⟨j, hj, -⟩ := closes_close.mp hc
      omega

/-- Whatever the block loop gives is the code of a block. -/
theorem luaBody_only (s : Str) : ∀ {k : Nat} {q : Option Char} {inQ : Bool} {qt : Str}, LuaQuote q inQ qt →
    ∀ (tok : Str) (line : Int) (n : Nat), luaBody (k + 1 : Nat) inQ qt tok line n s = ([], n + s.length) ∨
      ∃ code rest, s = code ++ '}' :: rest ∧ Closes k q code ∧ luaBody (k + 1 : Nat) inQ qt tok line n s = luaResult code tok line n := by
  induction s with
  | nil => intro k q inQ qt hq tok line n; left; rw [luaBody]; rfl
  | cons c s ih =>
    intro k q inQ qt hq tok line n
    rcases luaBody_step (k := k) hq tok line n c s with ⟨k', q', inQ', qt', hq', h1, _, h2⟩ | ⟨rfl, rfl, rfl, h⟩
    · rcases ih hq' (tok ++ [c]) (line + nls [c]) (n + 1) (k := k') with h3 | ⟨code, rest, rfl, h4, h5⟩
      · left
        rw [h2, h3, List.length_cons]
        congr 1; omega
      · right
        exact ⟨c :: code, rest, rfl, (h1 code).mpr h4, by rw [h2, h5, luaResult_cons]⟩
    · right
      exact ⟨[], s, rfl, closes_nil.mpr ⟨rfl, rfl⟩, h⟩


theorem luaStart_space (ws : Str) (h : ∀ c ∈ ws, isSpaceRune c = true) : ∀ (line : Int) (n : Nat) (rest : Str),
    luaStart line n (ws ++ rest) = luaStart (line + nls ws) (n + ws.length) rest := by
  induction ws with
  | nil => intro line n rest; rw [nls_nil, Int.add_zero]; rfl
  | cons c ws ih =>
    intro line n rest
    rw [List.cons_append, luaStart]
    simp only [scanLine_eq, isSpace_single, h c (by simp), Bool.not_true, Bool.false_eq_true, if_false]
    rw [ih (fun x hx => h x (by simp [hx])), nls_cons c ws, Int.add_assoc, List.length_cons]
    congr 1
    omega

theorem luaSetArg_space (ws : Str) (h : ∀ c ∈ ws, isSpaceRune c = true) : ∀ (line : Int) (n : Nat) (rest : Str),
    luaSetArg [] line n (ws ++ rest) = luaSetArg [] (line + nls ws) (n + ws.length) rest := by
  induction ws with
  | nil => intro line n rest; rw [nls_nil, Int.add_zero]; rfl
  | cons c ws ih =>
    intro line n rest
    rw [List.cons_append, luaSetArg]
    simp only [scanLine_eq, isSpace_single, h c (by simp), if_true, bne_self_eq_false, Bool.false_eq_true, if_false]
    rw [ih (fun x hx => h x (by simp [hx])), nls_cons c ws, Int.add_assoc, List.length_cons]
    congr 1
    omega

theorem luaSetArg_arg (a : Str) (h : ∀ c ∈ a, isSpaceRune c = false) : ∀ (arg : Str) (line : Int) (n : Nat) (rest : Str),
    luaSetArg arg line n (a ++ rest) = luaSetArg (arg ++ a) line (n + a.length) rest := by
  induction a with
  | nil => intro arg line n rest; simp
  | cons c a ih =>
    intro arg line n rest
    have hc : c ≠ '\n' := by intro e; have := h c (by simp); rw [e] at this; revert this; decide
    rw [List.cons_append, luaSetArg]
    simp only [scanLine_eq, isSpace_single, h c (by simp), Bool.false_eq_true, if_false]
    rw [ih (fun x hx => h x (by simp [hx])), nls_single, if_neg hc, List.length_cons, List.append_assoc, Int.add_zero]
    congr 1
    omega

theorem luaSetArg_end {arg : Str} (ha : arg ≠ []) {c : Char} (hc : isSpaceRune c = true) (line : Int) (n : Nat) (rest : Str) :
    luaSetArg arg line n (c :: rest) =
      (⟨arg, line + nls [c], false, none⟩ :: (luaStart (line + nls [c]) (n + 1) rest).1, (luaStart (line + nls [c]) (n + 1) rest).2) := by
  rw [luaSetArg]
  simp only [scanLine_eq, isSpace_single, hc, if_true]
  rw [if_pos (by simpa using ha)]

end Verif
