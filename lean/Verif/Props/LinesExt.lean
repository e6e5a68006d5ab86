import Verif.Props.ConcatExt
import Verif.Props.Causes
/-!
# C05 with external lexers: the lines of the tokens
-/
namespace Verif
open Spec ExtLex

variable {ext : ExtLexers}

/-- The line of the next token. -/
def firstLine (st : LexSt) : Int := if st.lexState = .skipSpace then st.tokenLine else st.tokenStartLine

theorem firstLine_space {st : LexSt} (h : st.lexState = .skipSpace) : firstLine st = st.tokenLine := if_pos h
theorem firstLine_other {st : LexSt} (h : st.lexState ≠ .skipSpace) : firstLine st = st.tokenStartLine := if_neg h

theorem lineOf_inWord {st : LexSt} {la : Str} (hs : st.lexState = .inWord) (hl : st.tokenStartLine ≤ st.tokenLine) :
    (∀ t ∈ (lexInWord st la).1, t.line = st.tokenStartLine) ∧
    ∀ st', (lexInWord st la).2 = some st' → st'.tokenLine = st.tokenLine ∧ st.tokenStartLine ≤ firstLine st' ∧ firstLine st' ≤ st'.tokenLine := by
  unfold lexInWord
  split
  · refine ⟨by simp, fun st' h => ?_⟩
    cases h
    exact ⟨rfl, by rw [firstLine_other (by simp)]; exact hl, by rw [firstLine_other (by simp)]⟩
  · simp only
    split
    · refine ⟨by simp [LexSt.emitTok], fun st' h => ?_⟩
      cases h
      exact ⟨rfl, by rw [firstLine_space rfl]; exact hl, by rw [firstLine_space rfl]⟩
    · split
      · refine ⟨by simp, fun st' h => ?_⟩
        cases h
        exact ⟨rfl, by rw [firstLine_other (by simp)], by rw [firstLine_other (by simp)]; exact hl⟩
      · split
        · split
          · refine ⟨by simp, fun st' h => ?_⟩
            cases h
            exact ⟨rfl, by rw [firstLine_other (by simp [hs])], by rw [firstLine_other (by simp [hs])]; exact hl⟩
          · refine ⟨by simp, fun st' h => ?_⟩
            cases h
            exact ⟨rfl, by rw [firstLine_other (by simp)]; exact hl, by rw [firstLine_other (by simp)]⟩
        · split
          · rename_i hla
            rw [lexSpecial_eq _ hla]
            split
            · refine ⟨?_, fun st' h => by cases h⟩
              intro t ht
              simp only at ht
              split at ht <;> simp [LexSt.emitTok] at ht
              · rcases ht with rfl | rfl <;> rfl
              · rw [ht]
            · split
              · refine ⟨?_, fun st' h => by cases h⟩
                intro t ht
                simp only at ht
                split at ht <;> simp [LexSt.emitTok] at ht
                · rcases ht with rfl | rfl <;> rfl
                · rw [ht]
              · refine ⟨?_, fun st' h => ?_⟩
                · intro t ht
                  simp only at ht
                  split at ht <;> simp [LexSt.emitTok] at ht
                  · rcases ht with rfl | rfl <;> rfl
                  · rw [ht]
                · cases h
                  exact ⟨rfl, by rw [firstLine_space rfl]; exact hl, by rw [firstLine_space rfl]⟩
          · refine ⟨by simp, fun st' h => ?_⟩
            cases h
            exact ⟨rfl, by rw [firstLine_other (by simp [hs])], by rw [firstLine_other (by simp [hs])]; exact hl⟩

theorem lineOf_switch {st : LexSt} {la : Str} (hl : firstLine st ≤ st.tokenLine) :
    (∀ t ∈ (lexSwitch st la).1, t.line = firstLine st) ∧
    ∀ st', (lexSwitch st la).2 = some st' → st'.tokenLine = st.tokenLine ∧ firstLine st ≤ firstLine st' ∧ firstLine st' ≤ st'.tokenLine := by
  unfold lexSwitch
  split
  · rename_i hs
    rw [firstLine_space hs]
    split
    · exact lineOf_inWord (st := { st with lexState := .inWord, newToken := true, tokenStartLine := st.tokenLine }) rfl (Int.le_refl _)
    · refine ⟨by simp, fun st' h => ?_⟩
      cases h
      exact ⟨rfl, by rw [firstLine_space hs], by rw [firstLine_space hs]⟩
  · rename_i hs
    have he := firstLine_other (st := st) (by simp [hs])
    rw [he] at hl ⊢
    exact lineOf_inWord hs hl
  · rename_i hs
    have he := firstLine_other (st := st) (by simp [hs])
    rw [he] at hl ⊢
    split
    · refine ⟨by simp [LexSt.emitTok], fun st' h => ?_⟩
      cases h
      exact ⟨rfl, by rw [firstLine_space rfl]; exact hl, by rw [firstLine_space rfl]⟩
    · refine ⟨by simp, fun st' h => ?_⟩
      cases h
      exact ⟨rfl, by rw [firstLine_other (by simp [hs])], by rw [firstLine_other (by simp [hs])]; exact hl⟩
  · rename_i hs
    have he := firstLine_other (st := st) (by simp [hs])
    rw [he] at hl ⊢
    simp only
    split
    · refine ⟨by simp, fun st' h => ?_⟩
      cases h
      exact ⟨rfl, by rw [firstLine_other (by simp [hs])], by rw [firstLine_other (by simp [hs])]; exact hl⟩
    · refine ⟨by simp, fun st' h => ?_⟩
      cases h
      exact ⟨rfl, by rw [firstLine_other (by simp)], by rw [firstLine_other (by simp)]; exact hl⟩
  · rename_i hs
    have he := firstLine_other (st := st) (by simp [hs])
    rw [he] at hl ⊢
    split
    · refine ⟨by simp [LexSt.emitTok], fun st' h => ?_⟩
      cases h
      exact ⟨rfl, by rw [firstLine_space rfl]; exact hl, by rw [firstLine_space rfl]⟩
    · refine ⟨by simp, fun st' h => ?_⟩
      cases h
      exact ⟨rfl, by rw [firstLine_other (by simp [hs])], by rw [firstLine_other (by simp [hs])]; exact hl⟩

/-- Only the last token of a round can have an error, which is on the current line and ends the stream. -/
theorem told_inWord (st : LexSt) (la : Str) : (∀ t ∈ (lexInWord st la).1, t.error = none) ∨
    ∃ pre t, (lexInWord st la).1 = pre ++ [t] ∧ (∀ u ∈ pre, u.error = none) ∧ lineTold t = st.tokenLine ∧ (lexInWord st la).2 = none := by
  have word : ∀ t ∈ (if st.token.length > 0 then [st.emitTok st.tokenStartLine false none] else []), t.error = none := by
    intro t ht
    split at ht
    · rw [List.mem_singleton.mp ht]; rfl
    · cases ht
  unfold lexInWord
  split
  · exact .inl (by simp)
  · simp only
    split
    · exact .inl (by simp [LexSt.emitTok])
    · split
      · exact .inl (by simp)
      · split
        · split <;> exact .inl (by simp)
        · split
          · rename_i hla
            rw [lexSpecial_eq _ hla]
            split
            · exact .inr ⟨_, _, rfl, word, rfl, rfl⟩
            · split
              · exact .inr ⟨_, _, rfl, word, rfl, rfl⟩
              · refine .inl fun t ht => ?_
                rcases List.mem_append.mp ht with ht | ht
                · exact word t ht
                · rw [List.mem_singleton.mp ht]
          · exact .inl (by simp)

theorem told_switch (st : LexSt) (la : Str) : (∀ t ∈ (lexSwitch st la).1, t.error = none) ∨
    ∃ pre t, (lexSwitch st la).1 = pre ++ [t] ∧ (∀ u ∈ pre, u.error = none) ∧ lineTold t = st.tokenLine ∧ (lexSwitch st la).2 = none := by
  unfold lexSwitch
  split
  · split
    · exact told_inWord { st with lexState := .inWord, newToken := true, tokenStartLine := st.tokenLine } la
    · exact .inl (by simp)
  · exact told_inWord st la
  · split <;> exact .inl (by simp [LexSt.emitTok])
  · simp only
    split <;> exact .inl (by simp)
  · split <;> exact .inl (by simp [LexSt.emitTok])

theorem nls_nonneg (s : Str) : 0 ≤ nls s := by unfold nls; omega

/-- The tokens are in the order of the lines they tell, and these are from `lo` to `hi`. -/
def LinedIn (lo hi : Int) (toks : List Tok) : Prop := InOrder toks ∧ ∀ t ∈ toks, lo ≤ lineTold t ∧ lineTold t ≤ hi

theorem LinedIn.nil (lo hi : Int) : LinedIn lo hi [] := ⟨.nil, by simp⟩

theorem LinedIn.wider {lo lo' hi hi' : Int} {l : List Tok} (h : LinedIn lo hi l) (h1 : lo' ≤ lo) (h2 : hi ≤ hi') : LinedIn lo' hi' l :=
  ⟨h.1, fun t ht => by have := h.2 t ht; omega⟩

theorem LinedIn.append {lo m m' hi : Int} {l l' : List Tok} (h : LinedIn lo m l) (h' : LinedIn m' hi l') (h1 : lo ≤ m') (h2 : m ≤ m') (h3 : m ≤ hi) : LinedIn lo hi (l ++ l') := by
  refine ⟨List.pairwise_append.mpr ⟨h.1, h'.1, fun a ha b hb => ?_⟩, fun t ht => ?_⟩
  · have := h.2 a ha
    have := h'.2 b hb
    omega
  · rcases List.mem_append.mp ht with ht | ht
    · have := h.2 t ht; omega
    · have := h'.2 t ht; omega

theorem LinedIn.same {m : Int} {l : List Tok} (h : ∀ t ∈ l, lineTold t = m) : LinedIn m m l := by
  refine ⟨List.pairwise_iff_forall_sublist.mpr fun {a b} hs => ?_, fun t ht => by rw [h t ht]; omega⟩
  rw [h a (hs.subset (by simp)), h b (hs.subset (by simp))]

theorem LinedIn.ofSwitch {st : LexSt} {la : Str} (hl : firstLine st ≤ st.tokenLine) : LinedIn (firstLine st) st.tokenLine (lexSwitch st la).1 := by
  have h1 := (lineOf_switch (la := la) hl).1
  rcases told_switch st la with h | ⟨pre, t, h2, h3, h4, -⟩
  · exact (LinedIn.same fun t ht => (lineTold_none (h t ht)).trans (h1 t ht)).wider (Int.le_refl _) hl
  · rw [h2] at h1 ⊢
    refine (LinedIn.same (m := firstLine st) fun u hu => (lineTold_none (h3 u hu)).trans (h1 u (List.mem_append_left _ hu))).append
      (LinedIn.same (m := st.tokenLine) (l := [t]) fun u hu => ?_) hl hl hl
    rw [List.mem_singleton.mp hu, h4]

/-- The tokens of the external lexers are in the order of their lines, which are the lines read. -/
def LinesRead (ext : ExtLexers) : Prop :=
  ∀ name lx, ext name = some lx → ∀ (cs : List Char) (line : Int), LinedIn line (line + nls (cs.take (lx cs line).2)) (lx cs line).1

theorem bump_line (st : LexSt) (c : Char) : (bump st c).tokenLine = st.tokenLine + nls [c] := by
  unfold bump
  rw [nls_single]
  by_cases hc : c = '\n' <;> simp [hc]

theorem bump_first (st : LexSt) (c : Char) (h : firstLine st ≤ st.tokenLine) :
    firstLine st ≤ firstLine (bump st c) ∧ firstLine (bump st c) ≤ (bump st c).tokenLine := by
  have h1 := bump_line st c
  have h2 : (bump st c).tokenStartLine = st.tokenStartLine := by unfold bump; split <;> rfl
  have h3 : (bump st c).lexState = st.lexState := by unfold bump; split <;> rfl
  have h4 := nls_nonneg [c]
  unfold firstLine at h ⊢
  rw [h1, h2, h3]
  split at h <;> rename_i hs <;> simp only [hs, if_true, if_false] <;> omega

theorem lineOf_step {st : LexSt} {c : Char} (hl : firstLine st ≤ st.tokenLine) :
    LinedIn (firstLine st) (st.tokenLine + nls [c]) (lexStep st c).1 ∧
    ∀ st', (lexStep st c).2 = some st' → st'.tokenLine = st.tokenLine + nls [c] ∧ firstLine st ≤ firstLine st' ∧ firstLine st' ≤ st'.tokenLine ∧
      ∀ t ∈ (lexStep st c).1, lineTold t ≤ firstLine st' := by
  have h0 := nls_nonneg [c]
  unfold lexStep
  split
  · rename_i hc
    subst hc
    refine ⟨.nil _ _, fun st' h => ?_⟩
    cases h
    exact ⟨by simp [nls_single], Int.le_refl _, hl, by simp⟩
  · split
    · rename_i hc
      refine ⟨.nil _ _, fun st' h => ?_⟩
      cases h
      exact ⟨by simp [nls_single, hc.1], Int.le_refl _, hl, by simp⟩
    · obtain ⟨b1, b2⟩ := bump_first st c hl
      have h2 := lineOf_switch (st := { bump st c with esc := false }) (la := if st.esc then ['\\', c] else [c]) b2
      have h3 := LinedIn.ofSwitch (st := { bump st c with esc := false }) (la := if st.esc then ['\\', c] else [c]) b2
      refine ⟨h3.wider b1 (Int.le_of_eq (bump_line st c)), fun st' h => ?_⟩
      obtain ⟨k1, k2, k3⟩ := h2.2 st' h
      refine ⟨k1.trans (bump_line st c), Int.le_trans b1 k2, k3, fun t ht => ?_⟩
      rcases told_switch { bump st c with esc := false } (if st.esc then ['\\', c] else [c]) with h4 | ⟨-, -, -, -, -, h4⟩
      · rw [lineTold_none (h4 t ht), h2.1 t ht]
        exact k2
      · exact absurd (h4.symm.trans h) (by simp)

theorem lined_loop (hx : LinesRead ext) : ∀ (N : Nat) (s : List Char), s.length ≤ N → ∀ {st : LexSt}, Reach st → firstLine st ≤ st.tokenLine →
    LinedIn (firstLine st) (st.tokenLine + nls s) (loopE ext st s) := by
  have fin : ∀ {st : LexSt}, Reach st → firstLine st ≤ st.tokenLine → LinedIn (firstLine st) (st.tokenLine + nls []) (loopE ext st []) := by
    intro st hr hl
    rw [loopE_nil, nls_nil]
    have h1 : ∀ t ∈ (if st.token.length > 0 then [st.emitTok st.tokenStartLine (st.lexState == .inQuote) none] else []), lineTold t = firstLine st := by
      intro t ht
      split at ht
      · rename_i hne
        rw [List.mem_singleton.mp ht, firstLine_other fun h => by rw [hr.space h] at hne; simp at hne]
        rfl
      · cases ht
    have h2 : ∀ (st0 : LexSt), st0.tokenLine = st.tokenLine → LinedIn st.tokenLine st.tokenLine (if st0.depth > 0 then
        [st0.emitTok st0.tokenStartLine false (some (lexError c!"unexpected end of file, expecting \"}\"" st0.tokenLine))] else []) := by
      intro st0 hst
      split
      · exact LinedIn.same fun t ht => by rw [List.mem_singleton.mp ht]; exact hst
      · exact .nil _ _
    exact ((LinedIn.same h1).append (h2 _ (by split <;> rfl)) hl hl hl).wider (Int.le_refl _) (by omega)
  intro N
  induction N with
  | zero =>
    intro s hN st hr hl
    obtain rfl : s = [] := List.length_eq_zero_iff.mp (by omega)
    exact fin hr hl
  | succ N ih =>
    intro s hN st hr hl
    cases s with
    | nil => exact fin hr hl
    | cons c cs =>
      have hN' : cs.length ≤ N := by simpa using hN
      have hcs : nls (c :: cs) = nls [c] + nls cs := nls_append [c] cs
      have hcs0 := nls_nonneg cs
      cases hlk : lookAt ext st c with
      | none =>
        rw [loopE_none hlk]
        obtain ⟨m1, m2⟩ := lineOf_step (c := c) hl
        rcases hs : lexStep st c with ⟨out, _ | st'⟩
        · rw [hs] at m1
          exact m1.wider (Int.le_refl _) (by omega)
        · rw [hs] at m1 m2
          obtain ⟨k1, k2, k3, k4⟩ := m2 st' rfl
          have h := ih cs hN' (reach_step hr hs) k3
          rw [k1] at h
          have m3 : LinedIn (firstLine st) (firstLine st') out := ⟨m1.1, fun t ht => ⟨(m1.2 t ht).1, k4 t ht⟩⟩
          exact (m3.append h k2 (Int.le_refl _) (by omega)).wider (Int.le_refl _) (by omega)
      | some lx =>
        rw [loopE_some hlk]
        obtain ⟨-, -, hne, hlx⟩ := lookAt_some hlk
        have hns : st.lexState ≠ .skipSpace := fun e => hne (hr.space e)
        obtain ⟨b1, b2⟩ := bump_first st c hl
        have hb := bump_line st c
        have hc0 := nls_nonneg [c]
        have hread := hx _ lx hlx cs (bump st c).tokenLine
        have hsplit : nls cs = nls (cs.take (lx cs (bump st c).tokenLine).2) + nls (cs.drop (lx cs (bump st c).tokenLine).2) := by
          rw [← nls_append, List.take_append_drop]
        have ht0 := nls_nonneg (cs.take (lx cs (bump st c).tokenLine).2)
        have hd0 := nls_nonneg (cs.drop (lx cs (bump st c).tokenLine).2)
        have hname : LinedIn (firstLine st) (firstLine st) [⟨st.token, st.tokenStartLine, st.lexState == .inQuote, none⟩] :=
          LinedIn.same fun t ht => by rw [List.mem_singleton.mp ht, firstLine_other hns]; rfl
        have hA : (afterCall st c cs (lx cs (bump st c).tokenLine).2).tokenLine = (bump st c).tokenLine + nls (cs.take (lx cs (bump st c).tokenLine).2) := rfl
        have hAf : firstLine (afterCall st c cs (lx cs (bump st c).tokenLine).2) = (afterCall st c cs (lx cs (bump st c).tokenLine).2).tokenLine := firstLine_space rfl
        have hpre : LinedIn (firstLine st) (afterCall st c cs (lx cs (bump st c).tokenLine).2).tokenLine
            ([⟨st.token, st.tokenStartLine, st.lexState == .inQuote, none⟩] ++ (lx cs (bump st c).tokenLine).1) := by
          rw [hA]
          exact hname.append hread (by omega) (by omega) (by omega)
        rcases hs : callStep lx st c cs with ⟨out, o⟩
        have hcall : LinedIn (firstLine st) (afterCall st c cs (lx cs (bump st c).tokenLine).2).tokenLine out ∧
            ∀ st', o = some st' → st'.tokenLine = (afterCall st c cs (lx cs (bump st c).tokenLine).2).tokenLine ∧ firstLine st' = st'.tokenLine := by
          unfold callStep at hs
          simp only at hs
          split at hs
          · cases hs
            exact ⟨hpre, fun st' h => by cases h; exact ⟨rfl, hAf⟩⟩
          · simp only [Prod.mk.injEq] at hs
            have hsw := lineOf_switch (st := afterCall st c cs (lx cs (bump st c).tokenLine).2) (la := laText st c) (Int.le_of_eq hAf)
            refine ⟨?_, fun st' h => ?_⟩
            · rw [← hs.1]
              have h := LinedIn.ofSwitch (st := afterCall st c cs (lx cs (bump st c).tokenLine).2) (la := laText st c) (Int.le_of_eq hAf)
              rw [hAf] at h
              exact hpre.append h (by omega) (Int.le_refl _) (Int.le_refl _)
            · obtain ⟨k1, k2, k3⟩ := hsw.2 st' (hs.2.trans h)
              exact ⟨k1, by omega⟩
        cases o with
        | none => exact hcall.1.wider (Int.le_refl _) (by omega)
        | some st' =>
          obtain ⟨k1, k2⟩ := hcall.2 st' rfl
          have h := ih (cs.drop (lx cs (bump st c).tokenLine).2) (by rw [List.length_drop]; omega) (reach_call hr hlk hs) (Int.le_of_eq k2)
          rw [k2, k1] at h
          exact (hcall.1.append h (by omega) (Int.le_refl _) (by omega)).wider (Int.le_refl _) (by omega)

theorem lined_lexWith (hx : LinesRead ext) (s : Str) : LinedIn 1 (1 + nls s) (lexWith ext s) := lined_loop hx s.length s (Nat.le_refl _) reach_init (Int.le_refl 1)

/-- C05 with external lexers (order and range).  If the tokens of each external lexer are in the order of their lines, or for errors the lines of these, and their lines
are lines it read, then so are all tokens. -/
theorem C05_external (hx : LinesRead ext) (s : Str) : (lexWith ext s).Pairwise (fun a b => lineTold a ≤ lineTold b) ∧
    ∀ t ∈ lexWith ext s, 1 ≤ lineTold t ∧ lineTold t ≤ 1 + nls s := lined_lexWith hx s

/-! ## Lua -/

/-- The tokens are in the order of their lines, which are lines of the runes read. -/
def LinedRead (line : Int) (n : Nat) (cs : List Char) (r : List Tok × Nat) : Prop := n ≤ r.2 ∧ LinedIn line (line + nls (cs.take (r.2 - n))) r.1

theorem LinedRead.cons {line : Int} {n : Nat} {c : Char} {cs : List Char} {r : List Tok × Nat} (h : LinedRead (scanLine line c) (n + 1) cs r) : LinedRead line n (c :: cs) r := by
  obtain ⟨h1, h2⟩ := h
  obtain ⟨k, hk⟩ : ∃ k, r.2 = n + 1 + k := ⟨r.2 - (n + 1), by omega⟩
  refine ⟨by omega, ?_⟩
  rw [hk, show n + 1 + k - (n + 1) = k by omega, scanLine_eq] at h2
  rw [hk, show n + 1 + k - n = k + 1 by omega, List.take_succ_cons, show c :: cs.take k = [c] ++ cs.take k from rfl, nls_append]
  have := nls_nonneg [c]
  exact h2.wider (by omega) (by omega)

theorem LinedRead.now {line : Int} {n : Nat} {cs : List Char} {l : List Tok} (h : ∀ t ∈ l, lineTold t = line) : LinedRead line n cs (l, n) := by
  refine ⟨Nat.le_refl _, (LinedIn.same h).wider (Int.le_refl _) ?_⟩
  have := nls_nonneg (cs.take ((l, n).2 - n))
  omega

theorem luaBody_reads (cs : List Char) : ∀ (d : Int) (q : Bool) (qt tok : Str) (line : Int) (k : Nat), LinedRead line k cs (luaBody d q qt tok line k cs) := by
  induction cs with
  | nil => intro d q qt tok line k; exact .now (by simp [lineTold, lexError, GoErr.line?])
  | cons c cs ih =>
    intro d q qt tok line k
    apply LinedRead.cons
    rw [luaBody]
    simp only
    repeat' split
    all_goals first | exact ih _ _ _ _ _ _ | exact .now (by simp [lineTold, lexError, GoErr.line?])

theorem luaStart_reads (cs : List Char) : ∀ (line : Int) (k : Nat), LinedRead line k cs (luaStart line k cs) := by
  induction cs with
  | nil => intro line k; exact .now (by simp [lineTold, lexError, GoErr.line?])
  | cons c cs ih =>
    intro line k
    apply LinedRead.cons
    rw [luaStart]
    repeat' split
    all_goals first | exact ih _ _ | exact luaBody_reads _ _ _ _ _ _ _ | exact .now (by simp [lineTold, lexError, GoErr.line?])

theorem luaSetArg_reads (cs : List Char) : ∀ (arg : Str) (line : Int) (k : Nat), LinedRead line k cs (luaSetArg arg line k cs) := by
  induction cs with
  | nil => intro arg line k; exact .now (by simp [lineTold, lexError, GoErr.line?])
  | cons c cs ih =>
    intro arg line k
    apply LinedRead.cons
    rw [luaSetArg]
    simp only
    split
    · split
      · have h := luaStart_reads cs (scanLine line c) (k + 1)
        refine ⟨h.1, ?_⟩
        have h2 := nls_nonneg (cs.take ((luaStart (scanLine line c) (k + 1) cs).2 - (k + 1)))
        exact (LinedIn.same (m := scanLine line c) (l := [{ value := arg, line := scanLine line c }]) (by simp [lineTold])).append h.2 (Int.le_refl _) (Int.le_refl _) (Int.le_add_of_nonneg_right h2)
      · exact ih _ _ _
    · exact ih _ _ _

theorem lua_linesRead : LinesRead luaExt := by
  intro name lx hn cs line
  rw [luaExt_eq] at hn
  split at hn
  · cases hn
    by_cases h : (name == setByLuaBlock) = true
    · simp only [luaLex, if_pos h]
      exact (luaSetArg_reads cs [] line 0).2
    · simp only [luaLex, if_neg h]
      exact (luaStart_reads cs line 0).2
  · cases hn

/-- C05 for Lua. -/
theorem C05_lua (s : Str) : ((lexWith luaExt s).filter (·.error == none)).Pairwise (fun a b => a.line ≤ b.line) ∧
    ∀ t ∈ lexWith luaExt s, t.error = none → 1 ≤ t.line ∧ t.line ≤ 1 + nls s := by
  obtain ⟨h1, h2⟩ := C05_external lua_linesRead s
  refine ⟨(h1.sublist List.filter_sublist).imp_of_mem fun {a b} ha hb hab => ?_, fun t ht he => ?_⟩
  · rw [List.mem_filter] at ha hb
    rwa [lineTold_none (by simpa using ha.2), lineTold_none (by simpa using hb.2)] at hab
  · have := h2 t ht
    rwa [lineTold_none he] at this

/-- A Lua block over two lines, after which the lines are counted on. -/
example : (lexWith luaExt c!"set_by_lua_block $a\n{b\n} c;").map (fun t => (t.value, t.line)) =
    [(c!"set_by_lua_block", 1), (c!"$a", 2), (c!"b\n", 3), (c!";", 3), (c!"c", 3), (c!";", 3)] := by decide +kernel

/-- It does not hold for tokens with an error: the Lua lexer sends its error on line 0, and after a Lua block the error at the end of the text is on the line where
the directive began. -/
theorem C05_false_lua : ∃ s s' : Str, (∃ t ∈ lexWith luaExt s, t.error ≠ none ∧ t.line = 0) ∧ (∀ t ∈ lexWith luaExt s', 1 ≤ t.line) ∧
    ¬ (lexWith luaExt s').Pairwise (fun a b => a.line ≤ b.line) :=
  ⟨c!"content_by_lua_block a;", c!"http{content_by_lua_block {\n}", by decide +kernel, by decide +kernel, by decide +kernel⟩

/-! ## C79 with external lexers -/

/-- C79 with external lexers.  The line of an error is a line of the file. -/
theorem C79_line_external {env : Env} {fuel : Nat} {filename : Str} {o : ParseOptions} {p : Payload} (h : Parse env fuel filename o = .ok p)
    (hx : LinesRead (extLexersOf o.lexers)) (hg : ∀ k a e, env.glob k a = .error e → e.line? = none) :
    ∀ pe ∈ p.errors, ∀ l, pe.line = some l → ∃ k data, env.openFile k pe.file = .ok data ∧ 1 ≤ l ∧ l ≤ 1 + nls data.runes := by
  intro pe hpe l hpl
  obtain ⟨h1, k, data, ho, hc⟩ := C79_cause h pe hpe
  rw [hpl] at h1
  refine ⟨k, data, ho, ?_⟩
  have hb := (C05_external hx data.runes).2
  have fin : ∀ {t : Tok} {pre post}, fileToks o data = pre ++ t :: post → lineTold t = l → 1 ≤ l ∧ l ≤ 1 + nls data.runes := by
    intro t pre post h h2
    rw [← h2]
    exact hb t (by rw [show lexWith (extLexersOf o.lexers) data.runes = _ from h]; simp)
  generalize pe.error = er at h1 hc
  cases hc with
  | lexer h2 h3 h4 h5 h6 =>
    rename_i pre t post e e'
    have hle : e.line = some l := h5.symm.trans h1.symm
    refine fin h2 ?_
    unfold lineTold
    rw [h3]
    show (e.line).getD _ = l
    rw [hle]; rfl
  | reader h2 h3 h4 h5 h6 =>
    refine fin h2 ?_
    unfold lineTold
    rw [h3]
    exact Option.some.inj (h5.symm.trans h1.symm)
  | premature h2 h3 h4 h5 h6 h7 => exact fin h2 ((lineTold_none h3.1).trans (Option.some.inj (h6.symm.trans h1.symm)))
  | wrong h2 h3 h4 h5 h6 h7 h8 h9 h10 => exact fin h2 ((lineTold_none h3.1).trans (Option.some.inj (h9.symm.trans h1.symm)))
  | pattern h2 h3 h4 h5 h6 h7 h8 h9 h10 =>
    obtain ⟨-, -, k, h11⟩ := h10
    rw [hg _ _ _ h11] at h1
    cases h1

/-- C79 with external lexers.  The errors of a file are in the order of their lines. -/
theorem C79_ordered_external {env : Env} {fuel : Nat} {filename : Str} {o : ParseOptions} {p : Payload} (h : Parse env fuel filename o = .ok p)
    (hx : LinesRead (extLexersOf o.lexers)) (ho : o.combineConfigs = false) (hg : ∀ k a e, env.glob k a = .error e → e.line? = none) :
    ∀ c ∈ p.config, (c.errors.filterMap (·.line)).Pairwise (· ≤ ·) := by
  obtain ⟨cs, ps', h1, -, h3, -⟩ := Parse_ok h
  rw [h3 ho]
  exact h1.lined hg fun k f data _ => (C05_external hx data.runes).1

/-- A file with a Lua block over two lines, a wrong directive and a block without an end. -/
example : let p := Parse (exEnv [(c!"/e/n", c!"http{content_by_lua_block {\n}\nuser;\n")]) 2 c!"/e/n" { exOpts with lexers := luaRegisterLexer }
    (match p with | .ok p => p.errors.map (·.line) | _ => []) = [some 3, some 4] := by decide +kernel

/-- The theorems apply to it. -/
example : LinesRead (extLexersOf { exOpts with lexers := luaRegisterLexer }.lexers) := lua_linesRead

end Verif
