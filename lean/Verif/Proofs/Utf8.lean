import Verif.Spec.Utf8
import Mathlib.Tactic.SplitIfs
/-!
# Rune scanning
-/
namespace Verif
open Spec

theorem toNat_bounds (c : Char) : c.toNat < 0xD800 ∨ (0xDFFF < c.toNat ∧ c.toNat < 0x110000) := by
  have := c.valid
  simpa [UInt32.isValidChar, Nat.isValidChar] using this

theorem char_of_toNat {n : Nat} {c : Char} (h : n = c.toNat) : Char.ofNat n = c := by
  rw [h, Char.ofNat_toNat]

theorem toNat_ofNat {n : Nat} (h : n < 0xD800 ∨ (0xDFFF < n ∧ n < 0x110000)) : (Char.ofNat n).toNat = n := by
  have hv : n.isValidChar := h
  simp [Char.ofNat, hv, Char.toNat, Char.ofNatAux]

theorem first1 {b : Nat} (h : b < 0x80) : utf8First b = (1, 0, 0) := by simp [utf8First, h]
theorem first0 {b : Nat} (h : 0x80 ≤ b ∧ b < 0xC2 ∨ 0xF5 ≤ b) : utf8First b = (0, 0, 0) := by
  unfold utf8First; simp only [beq_iff_eq]; split_ifs <;> first | rfl | omega
theorem first2 {b : Nat} (h : 0xC2 ≤ b) (h' : b < 0xE0) : utf8First b = (2, 0x80, 0xBF) := by
  unfold utf8First; simp only [beq_iff_eq]; split_ifs <;> first | rfl | omega
theorem first3 {b : Nat} (h : 0xE0 ≤ b) (h' : b < 0xF0) :
    utf8First b = (3, (if b = 0xE0 then 0xA0 else 0x80), (if b = 0xED then 0x9F else 0xBF)) := by
  unfold utf8First; simp only [beq_iff_eq]; split_ifs <;> first | rfl | omega
theorem first4 {b : Nat} (h : 0xF0 ≤ b) (h' : b < 0xF5) :
    utf8First b = (4, (if b = 0xF0 then 0x90 else 0x80), (if b = 0xF4 then 0x8F else 0xBF)) := by
  unfold utf8First; simp only [beq_iff_eq]; split_ifs <;> first | rfl | omega

/-- The well-formed two-byte sequences. -/
def Ok2 (b0 b1 : Nat) : Prop := 0xC2 ≤ b0 ∧ b0 < 0xE0 ∧ 0x80 ≤ b1 ∧ b1 ≤ 0xBF
/-- The first two bytes of well-formed three-byte sequences. -/
def Ok3 (b0 b1 : Nat) : Prop :=
  0xE0 ≤ b0 ∧ b0 < 0xF0 ∧ 0x80 ≤ b1 ∧ b1 ≤ 0xBF ∧ (b0 = 0xE0 → 0xA0 ≤ b1) ∧ (b0 = 0xED → b1 ≤ 0x9F)
/-- The first two bytes of well-formed four-byte sequences. -/
def Ok4 (b0 b1 : Nat) : Prop :=
  0xF0 ≤ b0 ∧ b0 < 0xF5 ∧ 0x80 ≤ b1 ∧ b1 ≤ 0xBF ∧ (b0 = 0xF0 → 0x90 ≤ b1) ∧ (b0 = 0xF4 → b1 ≤ 0x8F)
def Cont (b : Nat) : Prop := 0x80 ≤ b ∧ b ≤ 0xBF

theorem isCont_iff (b : Nat) : isCont b = true ↔ Cont b := by simp [isCont, Cont]

theorem ok3_range {b0 b1 : Nat} (h : 0xE0 ≤ b0) (h' : b0 < 0xF0) :
    ((b1 < (if b0 = 0xE0 then 0xA0 else 0x80) || (if b0 = 0xED then 0x9F else 0xBF) < b1) = false) ↔ Ok3 b0 b1 := by
  simp only [Bool.or_eq_false_iff, decide_eq_false_iff_not, Ok3]
  split_ifs <;> omega

theorem ok4_range {b0 b1 : Nat} (h : 0xF0 ≤ b0) (h' : b0 < 0xF5) :
    ((b1 < (if b0 = 0xF0 then 0x90 else 0x80) || (if b0 = 0xF4 then 0x8F else 0xBF) < b1) = false) ↔ Ok4 b0 b1 := by
  simp only [Bool.or_eq_false_iff, decide_eq_false_iff_not, Ok4]
  split_ifs <;> omega

theorem ok2_range {b0 b1 : Nat} (h : 0xC2 ≤ b0) (h' : b0 < 0xE0) :
    ((decide (b1 < 0x80) || decide (0xBF < b1)) = false) ↔ Ok2 b0 b1 := by
  simp only [Bool.or_eq_false_iff, decide_eq_false_iff_not, Ok2]
  omega

/-- Data that starts with a complete well-formed sequence of more than one byte. -/
inductive Multi : List Nat → Char → Nat → Prop where
  | two {b0 b1 : Nat} (r : List Nat) : Ok2 b0 b1 →
      Multi (b0 :: b1 :: r) (Char.ofNat ((b0 - 0xC0) * 64 + (b1 - 0x80))) 2
  | three {b0 b1 b2 : Nat} (r : List Nat) : Ok3 b0 b1 → Cont b2 →
      Multi (b0 :: b1 :: b2 :: r) (Char.ofNat ((b0 - 0xE0) * 4096 + (b1 - 0x80) * 64 + (b2 - 0x80))) 3
  | four {b0 b1 b2 b3 : Nat} (r : List Nat) : Ok4 b0 b1 → Cont b2 → Cont b3 →
      Multi (b0 :: b1 :: b2 :: b3 :: r)
        (Char.ofNat ((b0 - 0xF0) * 262144 + (b1 - 0x80) * 4096 + (b2 - 0x80) * 64 + (b3 - 0x80))) 4

theorem decode_multi {data : List Nat} {c : Char} {n : Nat} (h : Multi data c n) : decodeRune data = (c, n) := by
  cases h with
  | two r h =>
    have h1 := (ok2_range h.1 h.2.1).2 h
    simp only [decodeRune, first2 h.1 h.2.1, h1]; rfl
  | three r h hc =>
    have h1 := (ok3_range h.1 h.2.1).2 h
    have h2 := (isCont_iff _).2 hc
    simp only [decodeRune, first3 h.1 h.2.1, h1, h2]; rfl
  | four r h hc hd =>
    have h1 := (ok4_range h.1 h.2.1).2 h
    have h2 := (isCont_iff _).2 hc
    have h3 := (isCont_iff _).2 hd
    simp only [decodeRune, first4 h.1 h.2.1, h1, h2, h3]; rfl

/-- What `DecodeRune` does on a byte that is not ASCII. -/
theorem decode_or {b0 : Nat} {rest : List Nat} (hb : 0x80 ≤ b0) :
    (∃ c n, Multi (b0 :: rest) c n) ∨ (decodeRune (b0 :: rest) = (runeError, 1)) := by
  by_cases h0 : b0 < 0xC2 ∨ 0xF5 ≤ b0
  · right; simp only [decodeRune, first0 (b := b0) (by omega)]; rfl
  by_cases h2 : b0 < 0xE0
  · have hlo : 0xC2 ≤ b0 := by omega
    match rest with
    | [] => right; simp only [decodeRune, first2 hlo h2]; rfl
    | b1 :: r =>
      by_cases hok : Ok2 b0 b1
      · exact .inl ⟨_, _, .two r hok⟩
      · right
        have : (decide (b1 < 0x80) || decide (0xBF < b1)) = true := by
          rw [← Bool.not_eq_false]; exact fun h => hok ((ok2_range hlo h2).1 h)
        simp only [decodeRune, first2 hlo h2, this]; rfl
  by_cases h3 : b0 < 0xF0
  · have hlo : 0xE0 ≤ b0 := by omega
    match rest with
    | [] => right; simp only [decodeRune, first3 hlo h3]; rfl
    | b1 :: r =>
      by_cases hok : Ok3 b0 b1
      · have h1 := (ok3_range hlo h3).2 hok
        match r with
        | [] => right; simp only [decodeRune, first3 hlo h3, h1]; rfl
        | b2 :: r =>
          by_cases hc : Cont b2
          · exact .inl ⟨_, _, .three r hok hc⟩
          · right
            have h2 : isCont b2 = false := by rw [← Bool.not_eq_true, isCont_iff]; exact hc
            simp only [decodeRune, first3 hlo h3, h1, h2]; rfl
      · right
        have : (decide (b1 < (if b0 = 0xE0 then 0xA0 else 0x80)) || decide ((if b0 = 0xED then 0x9F else 0xBF) < b1)) = true := by
          rw [← Bool.not_eq_false]; exact fun h => hok ((ok3_range hlo h3).1 h)
        simp only [decodeRune, first3 hlo h3, this]; rfl
  · have hlo : 0xF0 ≤ b0 := by omega
    have h4 : b0 < 0xF5 := by omega
    match rest with
    | [] => right; simp only [decodeRune, first4 hlo h4]; rfl
    | b1 :: r =>
      by_cases hok : Ok4 b0 b1
      · have h1 := (ok4_range hlo h4).2 hok
        match r with
        | [] => right; simp only [decodeRune, first4 hlo h4, h1]; rfl
        | b2 :: r =>
          by_cases hc : Cont b2
          · have h2 := (isCont_iff _).2 hc
            match r with
            | [] => right; simp only [decodeRune, first4 hlo h4, h1, h2]; rfl
            | b3 :: r =>
              by_cases hd : Cont b3
              · exact .inl ⟨_, _, .four r hok hc hd⟩
              · right
                have h3 : isCont b3 = false := by rw [← Bool.not_eq_true, isCont_iff]; exact hd
                simp only [decodeRune, first4 hlo h4, h1, h2, h3]; rfl
          · right
            have h2 : isCont b2 = false := by rw [← Bool.not_eq_true, isCont_iff]; exact hc
            simp only [decodeRune, first4 hlo h4, h1, h2]; rfl
      · right
        have : (decide (b1 < (if b0 = 0xF0 then 0x90 else 0x80)) || decide ((if b0 = 0xF4 then 0x8F else 0xBF) < b1)) = true := by
          rw [← Bool.not_eq_false]; exact fun h => hok ((ok4_range hlo h4).1 h)
        simp only [decodeRune, first4 hlo h4, this]; rfl

theorem multi_utf8 {data : List Nat} {c : Char} {n : Nat} (h : Multi data c n) :
    data = utf8Char c ++ data.drop n ∧ (utf8Char c).length = n ∧ 2 ≤ n := by
  cases h with
  | @two b0 b1 r h =>
    have ht : (Char.ofNat ((b0 - 0xC0) * 64 + (b1 - 0x80))).toNat = (b0 - 0xC0) * 64 + (b1 - 0x80) :=
      toNat_ofNat (by unfold Ok2 at h; omega)
    unfold Ok2 at h
    have e : utf8Char (Char.ofNat ((b0 - 0xC0) * 64 + (b1 - 0x80))) = [b0, b1] := by
      simp only [utf8Char, ht]
      rw [if_neg (by omega), if_pos (by omega)]
      rw [show 0xC0 + ((b0 - 0xC0) * 64 + (b1 - 0x80)) / 64 = b0 by omega,
        show 0x80 + ((b0 - 0xC0) * 64 + (b1 - 0x80)) % 64 = b1 by omega]
    rw [e]; simp
  | @three b0 b1 b2 r h hc =>
    unfold Ok3 at h
    unfold Cont at hc
    have ht : (Char.ofNat ((b0 - 0xE0) * 4096 + (b1 - 0x80) * 64 + (b2 - 0x80))).toNat =
        (b0 - 0xE0) * 4096 + (b1 - 0x80) * 64 + (b2 - 0x80) :=
      toNat_ofNat (by omega)
    have e : utf8Char (Char.ofNat ((b0 - 0xE0) * 4096 + (b1 - 0x80) * 64 + (b2 - 0x80))) = [b0, b1, b2] := by
      simp only [utf8Char, ht]
      rw [if_neg (by omega), if_neg (by omega), if_pos (by omega)]
      generalize hn : (b0 - 0xE0) * 4096 + (b1 - 0x80) * 64 + (b2 - 0x80) = n
      rw [show 0xE0 + n / 4096 = b0 by omega, show 0x80 + n / 64 % 64 = b1 by omega,
        show 0x80 + n % 64 = b2 by omega]
    rw [e]; simp
  | @four b0 b1 b2 b3 r h hc hd =>
    unfold Ok4 at h
    unfold Cont at hc hd
    have ht : (Char.ofNat ((b0 - 0xF0) * 262144 + (b1 - 0x80) * 4096 + (b2 - 0x80) * 64 + (b3 - 0x80))).toNat =
        (b0 - 0xF0) * 262144 + (b1 - 0x80) * 4096 + (b2 - 0x80) * 64 + (b3 - 0x80) :=
      toNat_ofNat (by omega)
    have e : utf8Char (Char.ofNat ((b0 - 0xF0) * 262144 + (b1 - 0x80) * 4096 + (b2 - 0x80) * 64 + (b3 - 0x80))) =
        [b0, b1, b2, b3] := by
      simp only [utf8Char, ht]
      rw [if_neg (by omega), if_neg (by omega), if_neg (by omega)]
      generalize hn : (b0 - 0xF0) * 262144 + (b1 - 0x80) * 4096 + (b2 - 0x80) * 64 + (b3 - 0x80) = n
      rw [show 0xF0 + n / 262144 = b0 by omega, show 0x80 + n / 4096 % 64 = b1 by omega,
        show 0x80 + n / 64 % 64 = b2 by omega, show 0x80 + n % 64 = b3 by omega]
    rw [e]; simp

/-- The encoding of a character that is not ASCII is a well-formed sequence. -/
theorem utf8_multi (c : Char) (h : 0x80 ≤ c.toNat) (rest : List Nat) :
    Multi (utf8Char c ++ rest) c (utf8Char c).length := by
  have hb := toNat_bounds c
  have hc : c = Char.ofNat c.toNat := (Char.ofNat_toNat c).symm
  by_cases h2 : c.toNat < 0x800
  · have e : utf8Char c = [0xC0 + c.toNat / 64, 0x80 + c.toNat % 64] := by
      simp only [utf8Char]; rw [if_neg (by omega), if_pos h2]
    rw [e]
    have := Multi.two (b0 := 0xC0 + c.toNat / 64) (b1 := 0x80 + c.toNat % 64) rest (by unfold Ok2; omega)
    rw [show (0xC0 + c.toNat / 64 - 0xC0) * 64 + (0x80 + c.toNat % 64 - 0x80) = c.toNat by omega, ← hc] at this
    exact this
  · by_cases h3 : c.toNat < 0x10000
    · have e : utf8Char c = [0xE0 + c.toNat / 4096, 0x80 + c.toNat / 64 % 64, 0x80 + c.toNat % 64] := by
        simp only [utf8Char]; rw [if_neg (by omega), if_neg h2, if_pos h3]
      rw [e]
      have := Multi.three (b0 := 0xE0 + c.toNat / 4096) (b1 := 0x80 + c.toNat / 64 % 64) (b2 := 0x80 + c.toNat % 64) rest
        (by unfold Ok3; omega) (by unfold Cont; omega)
      rw [show (0xE0 + c.toNat / 4096 - 0xE0) * 4096 + (0x80 + c.toNat / 64 % 64 - 0x80) * 64 + (0x80 + c.toNat % 64 - 0x80)
        = c.toNat by omega, ← hc] at this
      exact this
    · have e : utf8Char c = [0xF0 + c.toNat / 262144, 0x80 + c.toNat / 4096 % 64, 0x80 + c.toNat / 64 % 64,
          0x80 + c.toNat % 64] := by
        simp only [utf8Char]; rw [if_neg (by omega), if_neg h2, if_neg h3]
      rw [e]
      have := Multi.four (b0 := 0xF0 + c.toNat / 262144) (b1 := 0x80 + c.toNat / 4096 % 64)
        (b2 := 0x80 + c.toNat / 64 % 64) (b3 := 0x80 + c.toNat % 64) rest
        (by unfold Ok4; omega) (by unfold Cont; omega) (by unfold Cont; omega)
      rw [show (0xF0 + c.toNat / 262144 - 0xF0) * 262144 + (0x80 + c.toNat / 4096 % 64 - 0x80) * 4096 +
        (0x80 + c.toNat / 64 % 64 - 0x80) * 64 + (0x80 + c.toNat % 64 - 0x80) = c.toNat by omega, ← hc] at this
      exact this

theorem multi_append {data : List Nat} {c : Char} {n : Nat} (h : Multi data c n) (e : List Nat) : Multi (data ++ e) c n := by
  cases h with
  | two r h => exact .two (r ++ e) h
  | three r h hc => exact .three (r ++ e) h hc
  | four r h hc hd => exact .four (r ++ e) h hc hd

theorem multi_head {data : List Nat} {c : Char} {n : Nat} (h : Multi data c n) : ∃ b r, data = b :: r ∧ 0x80 ≤ b := by
  cases h with
  | two r h => exact ⟨_, _, rfl, by unfold Ok2 at h; omega⟩
  | three r h => exact ⟨_, _, rfl, by unfold Ok3 at h; omega⟩
  | four r h => exact ⟨_, _, rfl, by unfold Ok4 at h; omega⟩

theorem full_append {data : List Nat} (hf : fullRune data = true) (e : List Nat) : fullRune (data ++ e) = true := by
  match data with
  | [] => simp [fullRune] at hf
  | b0 :: rest =>
    rcases hu : utf8First b0 with ⟨size, lo, hi⟩
    match rest with
    | [] =>
      simp only [fullRune, hu, List.length_nil, List.cons_append, List.nil_append] at hf ⊢
      split at hf
      · rw [if_pos (by omega)]
      · cases hf
    | [b1] =>
      simp only [fullRune, hu, List.length_nil, List.length_cons, List.cons_append, List.nil_append] at hf ⊢
      split at hf
      · rw [if_pos (by omega)]
      · split at hf
        · rename_i h; rw [if_pos h]; simp
        · cases hf
    | b1 :: b2 :: r =>
      simp only [fullRune, hu, List.length_cons, List.length_append, List.cons_append] at hf ⊢
      split at hf
      · rw [if_pos (by omega)]
      · split at hf
        · rename_i h; rw [if_pos h]; simp
        · rename_i h; rw [if_neg h, hf]; simp

theorem multi_not_full {data e : List Nat} {c : Char} {n : Nat} (h : Multi (data ++ e) c n) (hd : data ≠ []) :
    Multi data c n ∨ fullRune data = false := by
  generalize hD : data ++ e = D at h
  match data, hd with
  | [b0], _ =>
    right
    cases h with
    | two r h => simp at hD; rw [hD.1]; simp only [fullRune, first2 h.1 h.2.1]; rfl
    | three r h => simp at hD; rw [hD.1]; simp only [fullRune, first3 h.1 h.2.1]; rfl
    | four r h => simp at hD; rw [hD.1]; simp only [fullRune, first4 h.1 h.2.1]; rfl
  | [b0, b1], _ =>
    cases h with
    | two r h => simp at hD; rw [hD.1, hD.2.1]; exact .inl (.two [] h)
    | three r h =>
      right; simp at hD; rw [hD.1, hD.2.1]
      simp only [fullRune, first3 h.1 h.2.1, (ok3_range h.1 h.2.1).2 h]; rfl
    | four r h =>
      right; simp at hD; rw [hD.1, hD.2.1]
      simp only [fullRune, first4 h.1 h.2.1, (ok4_range h.1 h.2.1).2 h]; rfl
  | [b0, b1, b2], _ =>
    cases h with
    | two r h => simp at hD; rw [hD.1, hD.2.1]; exact .inl (.two _ h)
    | three r h hc => simp at hD; rw [hD.1, hD.2.1, hD.2.2.1]; exact .inl (.three _ h hc)
    | four r h hc =>
      right; simp at hD; rw [hD.1, hD.2.1, hD.2.2.1]
      simp only [fullRune, first4 h.1 h.2.1, (ok4_range h.1 h.2.1).2 h, (isCont_iff _).2 hc]; rfl
  | b0 :: b1 :: b2 :: b3 :: r', _ =>
    left
    cases h with
    | two r h => simp at hD; rw [hD.1, hD.2.1]; exact .two _ h
    | three r h hc => simp at hD; rw [hD.1, hD.2.1, hD.2.2.1]; exact .three _ h hc
    | four r h hc hd => simp at hD; rw [hD.1, hD.2.1, hD.2.2.1, hD.2.2.2.1]; exact .four _ h hc hd

/-- What the scanner does at end of file. -/
theorem scanRunes_eof (b : Nat) (r : List Nat) :
    (b < 0x80 ∧ scanRunes (b :: r) true = some (Char.ofNat b, 1)) ∨
    (∃ c n, Multi (b :: r) c n ∧ scanRunes (b :: r) true = some (c, n)) ∨
    (0x80 ≤ b ∧ (∀ c n, ¬ Multi (b :: r) c n) ∧ scanRunes (b :: r) true = some (runeError, 1)) := by
  by_cases h : b < 0x80
  · left; simp [scanRunes, h]
  · right
    by_cases hm : ∃ c n, Multi (b :: r) c n
    · left
      obtain ⟨c, n, hm⟩ := hm
      refine ⟨c, n, hm, ?_⟩
      have := (multi_utf8 hm).2.2
      simp only [scanRunes, h, if_false, decode_multi hm]
      rw [if_pos (by omega)]
    · right
      refine ⟨by omega, fun c n hc => hm ⟨c, n, hc⟩, ?_⟩
      rcases decode_or (b0 := b) (rest := r) (by omega) with h1 | h1
      · exact absurd h1 hm
      · simp [scanRunes, h, h1]

/-- What the scanner does before end of file: it delivers what it would deliver whatever follows. -/
theorem scanRunes_some {d : List Nat} {r : Char × Nat} (h : scanRunes d false = some r) (e : List Nat) :
    scanRunes (d ++ e) true = some r := by
  match d with
  | [] => simp [scanRunes] at h
  | b :: d =>
    simp only [scanRunes] at h
    by_cases hb : b < 0x80
    · simp only [hb, if_true] at h
      simp [scanRunes, hb, h]
    · simp only [hb, if_false] at h
      rcases decode_or (b0 := b) (rest := d) (by omega) with ⟨c, n, hm⟩ | h1
      · have h2 := (multi_utf8 hm).2.2
        rw [decode_multi hm, if_pos (by simp only [gt_iff_lt]; omega)] at h
        rcases scanRunes_eof b (d ++ e) with ⟨h3, _⟩ | ⟨c', n', h3, h4⟩ | ⟨_, h3, _⟩
        · omega
        · have := decode_multi (multi_append hm e)
          rw [List.cons_append, decode_multi h3] at this
          rw [List.cons_append, h4, ← h, this]
        · exact absurd (multi_append hm e) (h3 c n)
      · rw [h1] at h
        have hnm : ∀ c n, ¬ Multi (b :: d) c n := by
          intro c n hm
          have h2 := (multi_utf8 hm).2.2
          rw [decode_multi hm] at h1
          simp at h1; omega
        by_cases hf : fullRune (b :: d) = true
        · simp [hf] at h
          rcases scanRunes_eof b (d ++ e) with ⟨h3, _⟩ | ⟨c', n', h3, h4⟩ | ⟨_, h3, h4⟩
          · omega
          · rcases multi_not_full (data := b :: d) (e := e) h3 (by simp) with h5 | h5
            · exact absurd h5 (hnm _ _)
            · rw [hf] at h5; cases h5
          · rw [List.cons_append, h4, ← h]
        · simp [hf] at h

theorem scanRunes_pos {d : List Nat} {b : Bool} {c : Char} {n : Nat} (h : scanRunes d b = some (c, n)) :
    1 ≤ n ∧ n ≤ d.length := by
  match d with
  | [] => simp [scanRunes] at h
  | b0 :: r =>
    simp only [scanRunes] at h
    split at h
    · cases h; simp
    · rename_i hb
      rcases decode_or (b0 := b0) (rest := r) (by omega) with ⟨c', n', hm⟩ | h1
      · have h2 := multi_utf8 hm
        rw [decode_multi hm, if_pos (by have := h2.2.2; simp only [gt_iff_lt]; omega)] at h
        cases h
        have h3 : (b0 :: r).length = (utf8Char c).length + ((b0 :: r).drop n).length := by
          rw [← List.length_append, ← h2.1]
        omega
      · rw [h1] at h
        simp only [gt_iff_lt, Nat.lt_irrefl, if_false] at h
        split at h
        · cases h
        · cases h; simp

theorem scanRunes_none_eof {d : List Nat} : scanRunes d true = none ↔ d = [] := by
  match d with
  | [] => simp [scanRunes]
  | b :: r => rcases scanRunes_eof b r with ⟨_, h⟩ | ⟨_, _, _, h⟩ | ⟨_, _, h⟩ <;> simp [h]

/-- All runes of the data. -/
def scanAll (data : List Nat) : List Char := scanEOF (data.length + 1) data

theorem scanEOF_fuel : ∀ (n m : Nat) (data : List Nat), data.length < n → data.length < m →
    scanEOF n data = scanEOF m data := by
  intro n
  induction n with
  | zero => intro m data h; omega
  | succ n ih =>
    intro m data h1 h2
    cases m with
    | zero => omega
    | succ m =>
      simp only [scanEOF]
      cases hs : scanRunes data true with
      | none => rfl
      | some r =>
        obtain ⟨c, k⟩ := r
        have := scanRunes_pos hs
        simp only
        rw [ih m (data.drop k) (by simp; omega) (by simp; omega)]

theorem scanAll_step {data : List Nat} {c : Char} {n : Nat} (h : scanRunes data true = some (c, n)) :
    scanAll data = c :: scanAll (data.drop n) := by
  have := scanRunes_pos h
  rw [scanAll, scanEOF, h]
  simp only
  rw [scanAll, scanEOF_fuel _ ((data.drop n).length + 1) _ (by simp; omega) (by simp)]

theorem scanAll_nil : scanAll [] = [] := rfl

theorem scanSome_all (fuel : Nat) : ∀ (data e : List Nat),
    (scanSome fuel data).1 ++ scanAll ((scanSome fuel data).2 ++ e) = scanAll (data ++ e) := by
  induction fuel with
  | zero => intro data e; simp [scanSome]
  | succ fuel ih =>
    intro data e
    simp only [scanSome]
    cases hs : scanRunes data false with
    | none => simp
    | some r =>
      obtain ⟨c, n⟩ := r
      have hp := scanRunes_pos hs
      have h1 := scanAll_step (scanRunes_some hs e)
      simp only [List.cons_append]
      rw [ih, h1, List.drop_append_of_le_length hp.2]

theorem scanChunks_all (chunks : List (List Nat)) : ∀ buf, scanChunks buf chunks = scanAll (buf ++ chunks.flatten) := by
  induction chunks with
  | nil => intro buf; simp [scanChunks, scanAll]
  | cons c cs ih =>
    intro buf
    simp only [scanChunks]
    rw [ih, scanSome_all]; simp

theorem scanRunes_utf8 (c : Char) (rest : List Nat) :
    scanRunes (utf8Char c ++ rest) true = some (c, (utf8Char c).length) := by
  by_cases h : c.toNat < 0x80
  · have e : utf8Char c = [c.toNat] := by simp [utf8Char, h]
    rw [e]; simp [scanRunes, h]
  · have hm := utf8_multi c (by omega) rest
    obtain ⟨b, r, e, hb⟩ := multi_head hm
    have hd := decode_multi hm
    have := (multi_utf8 hm).2.2
    rw [e] at hd ⊢
    simp only [scanRunes]
    rw [if_neg (by omega), hd, if_pos (by simp only [gt_iff_lt]; omega)]

theorem scanAll_utf8 (s : Str) : scanAll (utf8 s) = s := by
  induction s with
  | nil => rfl
  | cons c s ih =>
    have e : utf8 (c :: s) = utf8Char c ++ utf8 s := by simp [utf8]
    rw [e, scanAll_step (scanRunes_utf8 c _)]
    simp [ih]

theorem scanAll_decodes (n : Nat) : ∀ data : List Nat, data.length ≤ n → Decodes data (scanAll data) := by
  induction n with
  | zero =>
    intro data h
    have : data = [] := by cases data <;> simp_all
    subst this; exact .nil
  | succ n ih =>
    intro data h
    match data with
    | [] => exact .nil
    | b :: r =>
      have hr : r.length ≤ n := by simpa using h
      rcases scanRunes_eof b r with ⟨h1, h2⟩ | ⟨c, k, h1, h2⟩ | ⟨h1, h2, h3⟩
      · rw [scanAll_step h2]
        have ht : (Char.ofNat b).toNat = b := toNat_ofNat (by omega)
        have e : utf8Char (Char.ofNat b) = [b] := by simp [utf8Char, ht, h1]
        have := Decodes.char (Char.ofNat b) (ih r hr)
        rw [e] at this
        exact this
      · rw [scanAll_step h2]
        have hm := multi_utf8 h1
        have hl : ((b :: r).drop k).length ≤ n := by
          have := hm.2.2; simp at h ⊢; omega
        have := Decodes.char c (ih _ hl)
        rw [← hm.1] at this
        exact this
      · rw [scanAll_step h3]
        refine Decodes.bad b ?_ (ih r hr)
        rintro c ⟨e, he⟩
        have := scanRunes_utf8 c e
        rw [he, h3] at this
        simp at this
        have hc : c.toNat ≥ 0x80 := by
          rw [← this.1]; decide
        have := (multi_utf8 (utf8_multi c hc e)).2.2
        omega

theorem decodes_scanAll {bs : List Nat} {s : Str} (h : Decodes bs s) : s = scanAll bs := by
  induction h with
  | nil => rfl
  | @char c bs s _ ih => rw [scanAll_step (scanRunes_utf8 c bs), ih]; simp
  | @bad b bs s hb _ ih =>
    rcases scanRunes_eof b bs with ⟨h1, h2⟩ | ⟨c, k, h1, h2⟩ | ⟨h1, h2, h3⟩
    · have ht : (Char.ofNat b).toNat = b := toNat_ofNat (by omega)
      have e : utf8Char (Char.ofNat b) = [b] := by simp [utf8Char, ht, h1]
      exact absurd ⟨bs, by rw [e]; rfl⟩ (hb (Char.ofNat b))
    · exact absurd ⟨_, (multi_utf8 h1).1.symm⟩ (hb c)
    · rw [scanAll_step h3, ih]; rfl

end Verif
