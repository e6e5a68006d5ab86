import Verif.Props.Include
import Verif.Spec.Placed
/-!
# C29: the context an included file is parsed in
-/
namespace Verif
open Spec

/-- The lengths at which `append` has just moved a context to an array of its own, in all versions of Go: 0, 1, 2, 3, 5, 9, 17, 33. -/
def Fresh (n : Nat) : Prop := n ≤ 1 ∨ ∃ k ≤ 5, n = 2 ^ k + 1

/-- Up to 32 elements the capacity of a context is the least power of two that is enough. -/
def Fits (c : Ctx) : Prop :=
  c.cap = 0 ∧ c.vals.length = 0 ∨ c.cap = 1 ∧ c.vals.length = 1 ∨ (∃ k ≤ 4, c.cap = 2 ^ (k + 1) ∧ 2 ^ k < c.vals.length ∧ c.vals.length ≤ 2 ^ (k + 1)) ∨
    32 < c.vals.length ∧ c.vals.length ≤ c.cap

theorem Fits.enter {c : Ctx} (h : Fits c) (name : Str) (arr : Nat) :
    (c.vals.length < c.cap → Fits { c with vals := c.vals ++ [name] }) ∧
    (¬ c.vals.length < c.cap → Fits { vals := c.vals ++ [name], arr := arr, cap := growCap c.cap }) := by
  have hlen : (c.vals ++ [name]).length = c.vals.length + 1 := by simp
  rcases h with ⟨h1, h2⟩ | ⟨h1, h2⟩ | ⟨k, hk, h1, h2, h3⟩ | ⟨h1, h2⟩
  · refine ⟨fun h => by omega, fun _ => Or.inr (Or.inl ⟨by simp [growCap, h1], by simp [h2]⟩)⟩
  · refine ⟨fun h => by omega, fun _ => Or.inr (Or.inr (Or.inl ⟨0, by omega, by simp [growCap, h1], by simp [h2], by simp [h2]⟩))⟩
  · refine ⟨fun h => Or.inr (Or.inr (Or.inl ⟨k, hk, h1, by rw [hlen]; omega, by rw [hlen]; omega⟩)), fun h => ?_⟩
    have hp : 0 < 2 ^ k := Nat.two_pow_pos k
    have e : (2 : Nat) ^ (k + 1 + 1) = 2 * 2 ^ (k + 1) := by rw [Nat.pow_succ]; omega
    have e' : (2 : Nat) ^ (k + 1) = 2 * 2 ^ k := by rw [Nat.pow_succ]; omega
    by_cases hk' : k = 4
    · subst hk'
      refine Or.inr (Or.inr (Or.inr ⟨by rw [hlen]; omega, ?_⟩))
      simp only [growCap, hlen]
      rw [if_neg (by simp; omega), if_neg (by omega)]
      have := growLarge.2 c.cap
      omega
    · have hle : (2 : Nat) ^ (k + 1) ≤ 2 ^ 4 := Nat.pow_le_pow_right (by omega) (by omega)
      refine Or.inr (Or.inr (Or.inl ⟨k + 1, by omega, ?_, ?_, ?_⟩))
      · simp only [growCap]
        rw [if_neg (by simp; omega), if_pos (by omega), h1, e]
      · rw [hlen]; omega
      · rw [hlen]; omega
  · refine ⟨fun h => Or.inr (Or.inr (Or.inr ⟨by rw [hlen]; omega, by rw [hlen]; exact h⟩)), fun h => Or.inr (Or.inr (Or.inr ⟨by rw [hlen]; omega, ?_⟩))⟩
    simp only [growCap, hlen]
    rw [if_neg (by simp; omega), if_neg (by omega)]
    have := growLarge.2 c.cap
    omega

/-- Two contexts in the same array: appending to the one in place does not change the other up to a fresh length. -/
theorem Fits.fresh_le {c f : Ctx} {n : Nat} (hc : Fits c) (hf : Fits f) (hcap : f.cap = c.cap) (hfr : Fresh n) (hn : n ≤ f.vals.length) (hlt : c.vals.length < c.cap) :
    n ≤ c.vals.length := by
  rcases hc with ⟨h1, h2⟩ | ⟨h1, h2⟩ | ⟨k, hk, h1, h2, h3⟩ | ⟨h1, h2⟩
  · omega
  · omega
  · have hle : (2 : Nat) ^ (k + 1) ≤ 2 ^ 5 := Nat.pow_le_pow_right (by omega) (by omega)
    rcases hf with ⟨g1, g2⟩ | ⟨g1, g2⟩ | ⟨j, hj, g1, g2, g3⟩ | ⟨g1, g2⟩
    · omega
    · omega
    · have hjk : j = k := by
        have : (2 : Nat) ^ (j + 1) = 2 ^ (k + 1) := by rw [← g1, ← h1, hcap]
        have := Nat.pow_right_injective (Nat.le_refl 2) this
        omega
      subst hjk
      rcases hfr with hfr | ⟨i, -, hi⟩
      · have := Nat.two_pow_pos j
        omega
      · have e' : (2 : Nat) ^ (j + 1) = 2 * 2 ^ j := by rw [Nat.pow_succ]; omega
        have h4 : (2 : Nat) ^ i < 2 ^ (j + 1) := by omega
        have h5 := (Nat.pow_lt_pow_iff_right (by omega : 1 < 2)).mp h4
        have h6 : (2 : Nat) ^ i ≤ 2 ^ j := Nat.pow_le_pow_right (by omega) (by omega)
        omega
    · omega
  · rcases hfr with hfr | ⟨i, hi5, hi⟩
    · omega
    · have : (2 : Nat) ^ i ≤ 2 ^ 5 := Nat.pow_le_pow_right (by omega) hi5
      omega

/-- A context in its array. -/
def CtxOk (capOf : Nat → Nat) (n : Nat) (c : Ctx) : Prop := c.arr < n ∧ c.cap = capOf c.arr ∧ Fits c

/-- Every file of the worklist has the context it was included in, up to the fresh lengths. -/
def Good (capOf : Nat → Nat) (Orig : Str → List Str → Prop) (ps : PS) : Prop :=
  ∀ f ∈ ps.includes, CtxOk capOf ps.nextArr f.ctx ∧ ∃ c, Orig f.path c ∧ f.ctx.vals.length = c.length ∧ ∀ n ≤ c.length, Fresh n → f.ctx.vals.take n = c.take n

theorem addIncludes_new (file : Str) (ctx : Ctx) (stmt : Directive) (ps : PS) (names : List Str) :
    (addIncludes file ctx stmt ps names).2.nextArr = ps.nextArr ∧
    ∃ new, (addIncludes file ctx stmt ps names).2.includes = ps.includes ++ new ∧
      ∀ f ∈ new, f.ctx = ctx ∧ f.path ∈ names ∧ ps.included.lookup f.path = none := by
  induction names generalizing stmt ps with
  | nil => exact ⟨rfl, [], by unfold addIncludes; simp, by simp⟩
  | cons n ns ih =>
    unfold addIncludes
    obtain ⟨h1, new, h2, h3⟩ := ih (addInclude file ctx stmt ps n).1 (addInclude file ctx stmt ps n).2
    cases hl : ps.included.lookup n with
    | some i =>
      have e1 : (addInclude file ctx stmt ps n).2.includes = ps.includes := by unfold addInclude; rw [hl]
      have e2 : (addInclude file ctx stmt ps n).2.included = ps.included := by unfold addInclude; rw [hl]
      have e3 : (addInclude file ctx stmt ps n).2.nextArr = ps.nextArr := by unfold addInclude; rw [hl]
      rw [e1] at h2
      refine ⟨h1.trans e3, new, h2, fun f hf => ?_⟩
      obtain ⟨a, b, c⟩ := h3 f hf
      rw [e2] at c
      exact ⟨a, List.mem_cons_of_mem _ b, c⟩
    | none =>
      have e1 : (addInclude file ctx stmt ps n).2.includes = ps.includes ++ [{ path := n, ctx := ctx }] := by unfold addInclude; rw [hl]
      have e2 : (addInclude file ctx stmt ps n).2.included = ps.included ++ [(n, (ps.included.length : Int))] := by unfold addInclude; rw [hl]
      have e3 : (addInclude file ctx stmt ps n).2.nextArr = ps.nextArr := by unfold addInclude; rw [hl]
      rw [e1] at h2
      refine ⟨h1.trans e3, { path := n, ctx := ctx } :: new, by rw [h2]; simp, fun f hf => ?_⟩
      rcases List.mem_cons.mp hf with rfl | hf
      · exact ⟨rfl, by simp, hl⟩
      · obtain ⟨a, b, c⟩ := h3 f hf
        refine ⟨a, List.mem_cons_of_mem _ b, ?_⟩
        rw [e2] at c
        rw [assoc_none_iff] at c ⊢
        intro hm
        exact c (by simp only [List.map_append, List.mem_append]; exact Or.inl hm)

/-- The round includes `f`, for the first time. -/
def FirstIncludes (env : Env) (o : ParseOptions) (configDir file : Str) (ctx : Ctx) (t : Tok) (toks : List Tok) (ps : PS) (f : Str) : Prop :=
  ps.included.lookup f = none ∧ ∃ names, AddsNames env o configDir file ctx t toks ps names ∧ f ∈ names

/-- What a round adds to the worklist. -/
theorem step_new (env : Env) (o : ParseOptions) (configDir file : Str) (ctx : Ctx) (t : Tok) (toks : List Tok) (ps : PS) :
    (step env o configDir file ctx t toks ps).ps.nextArr = ps.nextArr ∧
    ∃ new, (step env o configDir file ctx t toks ps).ps.includes = ps.includes ++ new ∧
      ∀ f ∈ new, f.ctx = ctx ∧ FirstIncludes env o configDir file ctx t toks ps f.path := by
  have hsame : ∀ {ps' : PS}, ps'.nextArr = ps.nextArr → ps'.includes = ps.includes → ps'.nextArr = ps.nextArr ∧
      ∃ new, ps'.includes = ps.includes ++ new ∧ ∀ f ∈ new, f.ctx = ctx ∧ FirstIncludes env o configDir file ctx t toks ps f.path :=
    fun h1 h2 => ⟨h1, [], by rw [h2]; simp, by simp⟩
  have hincl : ∀ {args comments term rest stmt r ps'}, Reads o t toks args comments term rest → mapCtx ctx.vals = none →
      contains o.ignoreDirectives t.value = false → analyze file (baseStmt o file t args) term.value ctx.vals o = none →
      prepIf (baseStmt o file t args) = some stmt → doInclude env o configDir file ctx stmt ps = (r, ps') →
      ps'.nextArr = ps.nextArr ∧ ∃ new, ps'.includes = ps.includes ++ new ∧
        ∀ f ∈ new, f.ctx = ctx ∧ FirstIncludes env o configDir file ctx t toks ps f.path := by
    intro args comments term rest stmt r ps' R h1 h2 h3 h4 h5
    have hr := doInclude_inclR env o configDir file ctx stmt ps
    rw [h5] at hr
    have hdir : stmt.directive = t.value := by rw [prepIf_some h4]; rfl
    have hstmt : t.value = c!"include" → stmt = baseStmt o file t args := by
      intro ht
      rw [prepIf_other (by rw [baseStmt_directive, ht]; decide)] at h4
      exact (Option.some.inj h4).symm
    cases hr with
    | other => exact hsame rfl rfl
    | noArgs => exact hsame rfl rfl
    | globErr => exact hsame rfl rfl
    | openBad => exact hsame rfl rfl
    | openFail => exact hsame rfl rfl
    | globOk a as names hc hargs hm hg =>
      obtain ⟨e1, new, e2, e3⟩ := addIncludes_new file ctx stmt { ps with globs := ps.globs + 1 } (sortStrings names)
      simp only [Bool.and_eq_true, Bool.not_eq_true', beq_iff_eq] at hc
      rw [hdir] at hc
      rw [hstmt hc.2] at hargs
      refine ⟨e1, new, e2, fun f hf => ?_⟩
      obtain ⟨a1, a2, a3⟩ := e3 f hf
      exact ⟨a1, a3, _, .glob args comments term rest a as names R h1 h2 h3 hc.1 hc.2 hargs hm hg, a2⟩
    | openOk a as data hc hargs hm hg =>
      obtain ⟨e1, new, e2, e3⟩ := addIncludes_new file ctx stmt { ps with opens := ps.opens + 1 } [resolve env configDir a]
      simp only [Bool.and_eq_true, Bool.not_eq_true', beq_iff_eq] at hc
      rw [hdir] at hc
      rw [hstmt hc.2] at hargs
      refine ⟨e1, new, e2, fun f hf => ?_⟩
      obtain ⟨a1, a2, a3⟩ := e3 f hf
      exact ⟨a1, a3, _, .file args comments term rest a as data R h1 h2 h3 hc.1 hc.2 hargs hm hg, a2⟩
  have hc := step_cases env o configDir file ctx t toks ps
  generalize step env o configDir file ctx t toks ps = s at hc
  cases hc with
  | tokErr | close | comment | premature | mapFail | mapOk | ignored | rejectFail | panic => exact hsame rfl rfl
  | mapBad | rejectSkip | rejectStop | reject => exact hsame rfl rfl
  | inclFail _ _ _ _ _ _ _ R h1 h2 h3 h4 h5 => exact hincl R h1 h2 h3 h4 h5
  | simple _ _ _ _ _ _ _ R h1 h2 h3 h4 h5 => exact hincl R h1 h2 h3 h4 h5
  | block _ _ _ _ _ _ _ R h1 h2 h3 h4 h5 => exact hincl R h1 h2 h3 h4 h5

theorem Good.step {env : Env} {o : ParseOptions} {configDir file : Str} {ctx : Ctx} {t : Tok} {toks : List Tok} {ps : PS} {capOf : Nat → Nat}
    {Orig : Str → List Str → Prop} (hg : Good capOf Orig ps) (hc : CtxOk capOf ps.nextArr ctx)
    (ho : ∀ f, FirstIncludes env o configDir file ctx t toks ps f → Orig f ctx.vals) :
    (step env o configDir file ctx t toks ps).ps.nextArr = ps.nextArr ∧ Good capOf Orig (step env o configDir file ctx t toks ps).ps := by
  obtain ⟨h1, new, h2, h3⟩ := step_new env o configDir file ctx t toks ps
  refine ⟨h1, fun f hf => ?_⟩
  rw [h2] at hf
  rw [h1]
  rcases List.mem_append.mp hf with hf | hf
  · exact hg f hf
  · obtain ⟨a, b⟩ := h3 f hf
    rw [a]
    exact ⟨hc, ctx.vals, ho _ b, rfl, fun _ _ _ => rfl⟩

/-- Entering a block keeps the fresh contexts. -/
theorem Good.enter {stmt : Directive} {ctx : Ctx} {ps : PS} {capOf : Nat → Nat} {Orig : Str → List Str → Prop} (hg : Good capOf Orig ps)
    (hc : CtxOk capOf ps.nextArr ctx) : ∃ capOf', (∀ a < ps.nextArr, capOf' a = capOf a) ∧ ps.nextArr ≤ (enterBlockCtx stmt ctx ps).2.nextArr ∧
      CtxOk capOf' (enterBlockCtx stmt ctx ps).2.nextArr (enterBlockCtx stmt ctx ps).1 ∧ Good capOf' Orig (enterBlockCtx stmt ctx ps).2 := by
  have hold : ∀ {x : Nat}, Good (fun a => if a = ps.nextArr then x else capOf a) Orig { ps with nextArr := ps.nextArr + 1 } := by
    intro x f hf
    obtain ⟨⟨h1, h2, h3⟩, h4⟩ := hg f hf
    refine ⟨⟨by simp only; omega, ?_, h3⟩, h4⟩
    rw [h2]; simp only
    rw [if_neg (by omega)]
  unfold enterBlockCtx
  split
  · refine ⟨fun a => if a = ps.nextArr then 2 else capOf a, fun a ha => if_neg (by omega), by simp, ⟨by simp, by simp, ?_⟩, hold⟩
    exact Or.inr (Or.inr (Or.inl ⟨0, by simp⟩))
  · by_cases hlt : ctx.vals.length < ctx.cap
    · rw [if_pos hlt]
      refine ⟨capOf, fun _ _ => rfl, by simp, ⟨hc.1, hc.2.1, (hc.2.2.enter stmt.directive 0).1 hlt⟩, ?_⟩
      intro f hf
      obtain ⟨f0, hf0, rfl⟩ := List.mem_map.mp hf
      obtain ⟨⟨h1, h2, h3⟩, c, h4, h5, h6⟩ := hg f0 hf0
      simp only [Ctx.writeShared]
      by_cases ha : (f0.ctx.arr == ctx.arr) = true
      · simp only [ha, if_true]
        refine ⟨⟨h1, h2, ?_⟩, c, h4, by simpa using h5, ?_⟩
        · unfold Fits at h3 ⊢
          simpa using h3
        · intro n hn hfr
          rw [beq_iff_eq] at ha
          have hcap : f0.ctx.cap = ctx.cap := by rw [h2, ha, hc.2.1]
          have := hc.2.2.fresh_le h3 hcap hfr (by rw [h5]; exact hn) hlt
          rw [List.take_set, List.set_eq_of_length_le (by rw [List.length_take]; omega)]
          exact h6 n hn hfr
      · simp only [ha, Bool.false_eq_true, if_false]
        exact ⟨⟨h1, h2, h3⟩, c, h4, h5, h6⟩
    · rw [if_neg hlt]
      refine ⟨fun a => if a = ps.nextArr then growCap ctx.cap else capOf a, fun a ha => if_neg (by omega), by simp, ⟨by simp, by simp, ?_⟩, hold⟩
      exact (hc.2.2.enter stmt.directive ps.nextArr).2 hlt

theorem CtxOk.mono {capOf capOf' : Nat → Nat} {n n' : Nat} {c : Ctx} (h : CtxOk capOf n c) (h1 : ∀ a < n, capOf' a = capOf a) (h2 : n ≤ n') :
    CtxOk capOf' n' c := ⟨by have := h.1; omega, by rw [h1 _ h.1]; exact h.2.1, h.2.2⟩

theorem RunOk.good {env : Env} {o : ParseOptions} {configDir file : Str} {ctx : Ctx} {toks : List Tok} {ps : PS}
    {ds : List Directive} {toks' : List Tok} {ps' : PS} (h : RunOk env o configDir file ctx toks ps ds toks' ps') :
    ∀ {capOf : Nat → Nat} {Orig : Str → List Str → Prop}, Good capOf Orig ps → CtxOk capOf ps.nextArr ctx →
      (∀ ctx1 t1 toks1 ps1, Visits env o configDir file ctx toks ps ctx1 t1 toks1 ps1 →
        ∀ f, FirstIncludes env o configDir file ctx1 t1 toks1 ps1 f → Orig f ctx1.vals) →
      ∃ capOf', (∀ a < ps.nextArr, capOf' a = capOf a) ∧ ps.nextArr ≤ ps'.nextArr ∧ Good capOf' Orig ps' := by
  induction h with
  | eof ctx ps => intro capOf Orig hg hc ho; exact ⟨capOf, fun _ _ => rfl, Nat.le_refl _, hg⟩
  | stop ctx t toks ps toks' ps' hs =>
    intro capOf Orig hg hc ho
    obtain ⟨h1, h2⟩ := hg.step hc (ho _ _ _ _ (.here ctx t toks ps))
    rw [hs] at h1 h2
    exact ⟨capOf, fun _ _ => rfl, Nat.le_of_eq h1.symm, h2⟩
  | next ctx t toks ps new toks1 ps1 ds toks' ps' hs hr ih =>
    intro capOf Orig hg hc ho
    obtain ⟨h1, h2⟩ := hg.step hc (ho _ _ _ _ (.here ctx t toks ps))
    rw [hs] at h1 h2
    change ps1.nextArr = ps.nextArr at h1
    obtain ⟨capOf', e1, e2, e3⟩ := ih (show Good capOf Orig ps1 from h2) (by rw [h1]; exact hc)
      (fun _ _ _ _ hv => ho _ _ _ _ (.next _ _ _ _ _ _ _ _ _ _ _ hs hv))
    rw [h1] at e1 e2
    exact ⟨capOf', e1, e2, e3⟩
  | block ctx t toks ps stmt comments toks1 ps1 b toks2 ps2 ds toks' ps' hs hr1 hr2 ih1 ih2 =>
    intro capOf Orig hg hc ho
    obtain ⟨h1, h2⟩ := hg.step hc (ho _ _ _ _ (.here ctx t toks ps))
    rw [hs] at h1 h2
    change ps1.nextArr = ps.nextArr at h1
    have h2 : Good capOf Orig ps1 := h2
    obtain ⟨c1, a1, a2, a3, a4⟩ := h2.enter (stmt := stmt) (ctx := ctx) (by rw [h1]; exact hc)
    obtain ⟨c2, b1, b2, b3⟩ := ih1 a4 a3 (fun _ _ _ _ hv => ho _ _ _ _ (.inside _ _ _ _ _ _ _ _ _ _ _ _ hs hv))
    obtain ⟨c3, d1, d2, d3⟩ := ih2 b3 (hc.mono (fun a ha => by rw [b1 a (by omega), a1 a (by omega)]) (by omega))
      (fun _ _ _ _ hv => ho _ _ _ _ (.after _ _ _ _ _ _ _ _ _ _ _ _ _ _ _ hs hr1 hv))
    exact ⟨c3, fun a ha => by rw [d1 a (by omega), b1 a (by omega), a1 a (by omega)], by omega, d3⟩

theorem RunFail.good {env : Env} {o : ParseOptions} {configDir file : Str} {ctx : Ctx} {toks : List Tok} {ps : PS}
    {e : Option GoErr} {toks' : List Tok} {ps' : PS} (h : RunFail env o configDir file ctx toks ps e toks' ps') :
    ∀ {capOf : Nat → Nat} {Orig : Str → List Str → Prop}, Good capOf Orig ps → CtxOk capOf ps.nextArr ctx →
      (∀ ctx1 t1 toks1 ps1, Visits env o configDir file ctx toks ps ctx1 t1 toks1 ps1 →
        ∀ f, FirstIncludes env o configDir file ctx1 t1 toks1 ps1 f → Orig f ctx1.vals) →
      ∃ capOf', (∀ a < ps.nextArr, capOf' a = capOf a) ∧ ps.nextArr ≤ ps'.nextArr ∧ Good capOf' Orig ps' := by
  induction h with
  | fail ctx t toks ps e toks' ps' hs =>
    intro capOf Orig hg hc ho
    obtain ⟨h1, h2⟩ := hg.step hc (ho _ _ _ _ (.here ctx t toks ps))
    rw [hs] at h1 h2
    exact ⟨capOf, fun _ _ => rfl, Nat.le_of_eq h1.symm, h2⟩
  | next ctx t toks ps new toks1 ps1 e toks' ps' hs hr ih =>
    intro capOf Orig hg hc ho
    obtain ⟨h1, h2⟩ := hg.step hc (ho _ _ _ _ (.here ctx t toks ps))
    rw [hs] at h1 h2
    change ps1.nextArr = ps.nextArr at h1
    obtain ⟨capOf', e1, e2, e3⟩ := ih (show Good capOf Orig ps1 from h2) (by rw [h1]; exact hc)
      (fun _ _ _ _ hv => ho _ _ _ _ (.next _ _ _ _ _ _ _ _ _ _ _ hs hv))
    rw [h1] at e1 e2
    exact ⟨capOf', e1, e2, e3⟩
  | inside ctx t toks ps stmt comments toks1 ps1 e toks' ps' hs hr ih =>
    intro capOf Orig hg hc ho
    obtain ⟨h1, h2⟩ := hg.step hc (ho _ _ _ _ (.here ctx t toks ps))
    rw [hs] at h1 h2
    change ps1.nextArr = ps.nextArr at h1
    have h2 : Good capOf Orig ps1 := h2
    obtain ⟨c1, a1, a2, a3, a4⟩ := h2.enter (stmt := stmt) (ctx := ctx) (by rw [h1]; exact hc)
    obtain ⟨c2, b1, b2, b3⟩ := ih a4 a3 (fun _ _ _ _ hv => ho _ _ _ _ (.inside _ _ _ _ _ _ _ _ _ _ _ _ hs hv))
    exact ⟨c2, fun a ha => by rw [b1 a (by omega), a1 a (by omega)], by omega, b3⟩
  | after ctx t toks ps stmt comments toks1 ps1 b toks2 ps2 e toks' ps' hs hr1 hr2 ih =>
    intro capOf Orig hg hc ho
    obtain ⟨h1, h2⟩ := hg.step hc (ho _ _ _ _ (.here ctx t toks ps))
    rw [hs] at h1 h2
    change ps1.nextArr = ps.nextArr at h1
    have h2 : Good capOf Orig ps1 := h2
    obtain ⟨c1, a1, a2, a3, a4⟩ := h2.enter (stmt := stmt) (ctx := ctx) (by rw [h1]; exact hc)
    obtain ⟨c2, b1, b2, b3⟩ := hr1.good a4 a3 (fun _ _ _ _ hv => ho _ _ _ _ (.inside _ _ _ _ _ _ _ _ _ _ _ _ hs hv))
    obtain ⟨c3, d1, d2, d3⟩ := ih b3 (hc.mono (fun a ha => by rw [b1 a (by omega), a1 a (by omega)]) (by omega))
      (fun _ _ _ _ hv => ho _ _ _ _ (.after _ _ _ _ _ _ _ _ _ _ _ _ _ _ _ hs hr1 hv))
    exact ⟨c3, fun a ha => by rw [d1 a (by omega), b1 a (by omega), a1 a (by omega)], by omega, d3⟩

theorem FilesMore.good {env : Env} {o : ParseOptions} {configDir : Str} {n : Nat} {ps ps' : PS} (h : FilesMore env o configDir n ps ps') :
    ∀ {capOf : Nat → Nat} {Orig : Str → List Str → Prop}, Good capOf Orig ps →
      (∀ file ctx t toks ps1, FilesVisits env o configDir ps file ctx t toks ps1 →
        ∀ f, FirstIncludes env o configDir file ctx t toks ps1 f → Orig f ctx.vals) → ∃ capOf', Good capOf' Orig ps' := by
  induction h with
  | zero => intro capOf Orig hg ho; exact ⟨capOf, hg⟩
  | ok n ps incl rest data ds toks' ps1 ps' hi hop hr hf ih =>
    intro capOf Orig hg ho
    have hgs : Good capOf Orig (startFile ps rest) := fun f hf => hg f (by rw [hi]; exact List.mem_cons_of_mem _ hf)
    obtain ⟨c1, -, -, h3⟩ := hr.good hgs (hg incl (by rw [hi]; simp)).1 (fun _ _ _ _ hv => ho _ _ _ _ _ (.here _ _ _ _ _ _ _ _ hi hop hv))
    exact ih h3 (fun _ _ _ _ _ hv => ho _ _ _ _ _ (.ok _ _ _ _ _ _ _ _ _ _ _ _ hi hop hr hv))
  | bad n ps incl rest data e toks' ps1 ps' hi hop hr hs hf ih =>
    intro capOf Orig hg ho
    have hgs : Good capOf Orig (startFile ps rest) := fun f hf => hg f (by rw [hi]; exact List.mem_cons_of_mem _ hf)
    obtain ⟨c1, -, -, h3⟩ := hr.good hgs (hg incl (by rw [hi]; simp)).1 (fun _ _ _ _ hv => ho _ _ _ _ _ (.here _ _ _ _ _ _ _ _ hi hop hv))
    exact ih (show Good c1 Orig (handleError o incl.path ps1 e) from h3)
      (fun _ _ _ _ _ hv => ho _ _ _ _ _ (.bad _ _ _ _ _ _ _ _ _ _ _ _ hi hop hr hs hv))

/-- **C29** (partial).  When a file is taken from the worklist, it is the main file, with the empty context, or a statement that was read before included
it for the first time, and its context has the depth of that of the statement and agrees with it in the outermost 0, 1, 2, 3, 5, 9, 17 and 33 blocks (up to 32, one more than a power of
two).  In particular it is that of the statement if this has such a depth.  See `C29_false` for the innermost block at depth 4. -/
theorem C29_partial {env : Env} {o : ParseOptions} {filename : Str} {n : Nat} {ps : PS} (h : FilesMore env o (env.dir filename) n (initPS filename) ps)
    {incl : FileCtx} {rest : List FileCtx} (hi : ps.includes = incl :: rest) :
    incl.path = filename ∧ incl.ctx.vals = [] ∨
    ∃ file ctx t toks ps1, FilesVisits env o (env.dir filename) (initPS filename) file ctx t toks ps1 ∧
      FirstIncludes env o (env.dir filename) file ctx t toks ps1 incl.path ∧ incl.ctx.vals.length = ctx.vals.length ∧
      (∀ n ≤ ctx.vals.length, Fresh n → incl.ctx.vals.take n = ctx.vals.take n) ∧ (Fresh ctx.vals.length → incl.ctx.vals = ctx.vals) := by
  obtain ⟨capOf, hg⟩ := h.good (capOf := fun _ => 0)
    (Orig := fun f c => f = filename ∧ c = [] ∨ ∃ file ctx t toks ps1, FilesVisits env o (env.dir filename) (initPS filename) file ctx t toks ps1 ∧
      FirstIncludes env o (env.dir filename) file ctx t toks ps1 f ∧ ctx.vals = c)
    (fun f hf => by
      simp only [initPS, List.mem_singleton] at hf
      subst hf
      exact ⟨⟨by simp [initPS], rfl, Or.inl ⟨rfl, rfl⟩⟩, [], Or.inl ⟨rfl, rfl⟩, rfl, fun _ _ _ => rfl⟩)
    (fun file ctx t toks ps1 hv f hf => Or.inr ⟨file, ctx, t, toks, ps1, hv, hf, rfl⟩)
  obtain ⟨-, c, hc, hl, he⟩ := hg incl (by rw [hi]; simp)
  rcases hc with ⟨h1, h2⟩ | ⟨file, ctx, t, toks, ps1, h1, h2, h3⟩
  · subst h2
    exact Or.inl ⟨h1, List.length_eq_zero_iff.1 hl⟩
  · subst h3
    refine Or.inr ⟨file, ctx, t, toks, ps1, h1, h2, hl, he, fun hfr => ?_⟩
    have := he _ (Nat.le_refl _) hfr
    rwa [List.take_length, ← hl, List.take_length] at this

/-- **C29** (partial).  A file included in at most three nested blocks is parsed in the context of a statement that included it for the first time. -/
theorem C29_shallow_partial {env : Env} {o : ParseOptions} {filename : Str} {n : Nat} {ps : PS} (h : FilesMore env o (env.dir filename) n (initPS filename) ps)
    {incl : FileCtx} {rest : List FileCtx} (hi : ps.includes = incl :: rest) (hn : incl.path ≠ filename) (hl : incl.ctx.vals.length ≤ 3) :
    ∃ file ctx t toks ps1, FilesVisits env o (env.dir filename) (initPS filename) file ctx t toks ps1 ∧
      FirstIncludes env o (env.dir filename) file ctx t toks ps1 incl.path ∧ incl.ctx.vals = ctx.vals := by
  rcases C29_partial h hi with ⟨h1, -⟩ | ⟨file, ctx, t, toks, ps1, h1, h2, h3, -, h4⟩
  · exact absurd h1 hn
  · refine ⟨file, ctx, t, toks, ps1, h1, h2, h4 ?_⟩
    rw [← h3]
    rcases Nat.lt_or_ge 1 incl.ctx.vals.length with hgt | hle
    · refine Or.inr ?_
      rcases Nat.lt_or_ge 2 incl.ctx.vals.length with hgt' | hle'
      · exact ⟨1, by omega, by omega⟩
      · exact ⟨0, by omega, by omega⟩
    · exact Or.inl hle

example : Fresh 5 ∧ Fresh 9 ∧ ¬ Fresh 4 := by
  refine ⟨Or.inr ⟨2, by omega, rfl⟩, Or.inr ⟨3, by omega, rfl⟩, ?_⟩
  rintro (h | ⟨k, -, hk⟩)
  · omega
  · rcases k with _ | _ | k
    · simp at hk
    · simp at hk
    · have : 0 < 2 ^ k := Nat.two_pow_pos k
      rw [Nat.pow_succ, Nat.pow_succ] at hk
      omega

/-- The configuration of `C29_false`: an include in four nested blocks, followed by a sibling block in the third. -/
def exDeep : Env := exEnv [(c!"/e/n", c!"a{b{c{d{include x;}map{}}}}"), (c!"/e/x", c!"y z;")]

/-- The payload for `exDeep`: the directive of the included file is taken for a parameter of `map`. -/
def exDeepOut : Payload := okPayload [
  (c!"/e/n", [blk c!"a" 1 [] [blk c!"b" 1 [] [blk c!"c" 1 [] [blk c!"d" 1 [] [incl 1 c!"x" [1]], blk c!"map" 1 [] []]]]]),
  (c!"/e/x", [param c!"y" 1 [c!"z"]])]

/-- **C29** is false: here the only include of the payload stands in the blocks a, b, c, d, but the file was parsed in the context of a, b, c, map, so that
its directive is not checked and counts as a parameter of the map.  The stored context shares its array with that of the blocks parsed after the include,
and `append` writes into it. -/
theorem C29_false : ∃ (env : Env) (o : ParseOptions) (c0 c1 : Config) (i : Directive), o.combineConfigs = false ∧
    Parse env 3 c!"/e/n" o = .ok { status := c!"ok", config := [c0, c1] } ∧
    At i [] c0.parsed [c!"a", c!"b", c!"c", c!"d"] ∧ i.includes = some [1] ∧
    (∀ d c, At d [] c0.parsed c → d.includes ≠ none → d = i) ∧
    ∃ d ∈ c1.parsed, d.isMapBlockParameter = true := by
  refine ⟨exDeep, exOpts, ⟨c!"/e/n", c!"ok", [], [blk c!"a" 1 [] [blk c!"b" 1 [] [blk c!"c" 1 [] [blk c!"d" 1 [] [incl 1 c!"x" [1]], blk c!"map" 1 [] []]]]]⟩,
    ⟨c!"/e/x", c!"ok", [], [param c!"y" 1 [c!"z"]]⟩, incl 1 c!"x" [1], rfl, ?_, ?_, rfl, ?_, _, List.mem_singleton.mpr rfl, rfl⟩
  · decide +kernel
  · exact .deep (List.mem_singleton.mpr rfl) rfl (.deep (List.mem_singleton.mpr rfl) rfl (.deep (List.mem_singleton.mpr rfl) rfl
      (.deep (List.mem_cons_self ..) rfl (.here (List.mem_singleton.mpr rfl)))))
  · intro d c h hi
    cases h with
    | here h => simp [blk] at h; subst h; simp at hi
    | deep hm hb h =>
      simp [blk] at hm; subst hm; cases hb
      cases h with
      | here h => simp [blk] at h; subst h; simp at hi
      | deep hm hb h =>
        simp [blk] at hm; subst hm; cases hb
        cases h with
        | here h => simp [blk] at h; subst h; simp at hi
        | deep hm hb h =>
          simp [blk] at hm; subst hm; cases hb
          cases h with
          | here h => simp [blk] at h; rcases h with rfl | rfl <;> simp at hi
          | deep hm hb h =>
            simp [blk] at hm; rcases hm with rfl | rfl
            · cases hb
              cases h with
              | here h => simpa using h
              | deep hm hb h => simp [incl] at hm; subst hm; cases hb
            · cases hb
              cases h with
              | here h => simp at h
              | deep hm hb h => simp at hm

example : Parse exDeep 3 c!"/e/n" exOpts = .ok exDeepOut := by decide +kernel

end Verif
