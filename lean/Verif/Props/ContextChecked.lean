import Verif.Props.Combined
import Verif.Proofs.Analyze
import Verif.Props.Examples
/-!
# C26: the directives of a payload were accepted where they stand

At some depths the code reads an included file in a wrong context (C29).  The statement check does not notice: it knows no context of four or more blocks, and up
to three blocks the context is right.
-/
namespace Verif
open Spec

/-- Contexts that the statement check does not tell apart. -/
def SameCheck (c c' : List Str) : Prop := c = c' ∨ (c.head? = c'.head? ∧ 4 ≤ c.length ∧ 4 ≤ c'.length)

theorem SameCheck.enter {c c' : List Str} (h : SameCheck c c') (name : Str) : SameCheck (Spec.enter c name) (Spec.enter c' name) := by
  rcases h with rfl | ⟨h1, h2, h3⟩
  · exact Or.inl rfl
  · unfold Spec.enter
    rw [h1]
    by_cases hl : c'.head? = some c!"http" ∧ name = c!"location"
    · rw [if_pos hl, if_pos hl]; exact Or.inl rfl
    · rw [if_neg hl, if_neg hl]
      refine Or.inr ⟨?_, by simp; omega, by simp; omega⟩
      cases c with
      | nil => simp at h2
      | cons a c =>
        cases c' with
        | nil => simp at h3
        | cons a' c' => simpa using h1

theorem SameCheck.at' {d : Directive} {ctx' c' : List Str} {ds : List Directive} (h : At d ctx' ds c') :
    ∀ {ctx : List Str}, SameCheck ctx ctx' → ∃ c, At d ctx ds c ∧ SameCheck c c' := by
  induction h with
  | here hm => intro ctx hs; exact ⟨ctx, .here hm, hs⟩
  | deep hm hb _ ih =>
    intro ctx hs
    obtain ⟨c, h1, h2⟩ := ih (hs.enter _)
    exact ⟨c, .deep hm hb h1, h2⟩

/-- The key of a context of four or more blocks has three or more `>`. -/
theorem ctxKey_count : ∀ c : List Str, c.length ≤ (ctxKey c).count '>' + 1
  | [] => by simp
  | [a] => by simp
  | a :: b :: l => by
    have := ctxKey_count (b :: l)
    rw [ctxKey_cons, List.count_append, List.count_cons]
    simp only [List.length_cons] at this ⊢
    simp only [beq_self_eq_true, if_true]
    omega

theorem ctxKey_deep {c : List Str} (h : 4 ≤ c.length) : contexts.lookup (ctxKey c) = none := by
  have h1 := ctxKey_count c
  rw [List.lookup_eq_none_iff]
  intro e he
  have h2 : e.1.count '>' ≤ 2 := by
    revert e
    decide
  have hk : ctxKey c ≠ e.1 := by
    intro hk
    rw [hk] at h1
    omega
  simpa using hk

theorem SameCheck.analyze {c c' : List Str} (h : SameCheck c c') (f : Str) (s : Directive) (t : Str) (o : ParseOptions) :
    Verif.analyze f s t c o = none ↔ Verif.analyze f s t c' o = none := by
  rcases h with rfl | ⟨-, h2, h3⟩
  · exact Iff.rfl
  · unfold Verif.analyze
    rw [ctxKey_deep h2, ctxKey_deep h3]
    simp only
    split <;> simp

theorem Approx.sameCheck {ctx c c' : List Str} (h : Approx ctx c) (hs : SameCheck c c') : SameCheck ctx c' := by
  have hhead : 4 ≤ c.length → ctx.head? = c.head? := by
    intro h4
    have h1 := h.2 1 (by omega) (Or.inl (Nat.le_refl _))
    have h2 := congrArg List.head? h1
    simpa [List.head?_take] using h2
  rcases hs with rfl | ⟨h1, h2, h3⟩
  · rcases Nat.lt_or_ge c.length 4 with h4 | h4
    · refine Or.inl (h.eq ?_)
      rcases Nat.lt_or_ge 1 c.length with hgt | hle
      · refine Or.inr ?_
        rcases Nat.lt_or_ge 2 c.length with hgt' | hle'
        · exact ⟨1, by omega, by omega⟩
        · exact ⟨0, by omega, by omega⟩
      · exact Or.inl hle
    · exact Or.inr ⟨hhead h4, by rw [h.1]; exact h4, h4⟩
  · exact Or.inr ⟨(hhead h2).trans h1, by rw [h.1]; exact h2, h3⟩

/-- The contexts that configs stand in pass the same checks as the contexts they were parsed in. -/
theorem Contexts.sameCheck {env : Env} {o : ParseOptions} {configDir : Str} {included : List (Str × Int)} {cs : List Config} {ctxOf : Nat → List Str}
    (h : Contexts env o configDir included cs ctxOf) (j : Nat) (hj : j < cs.length) :
    ∃ ctx, SameCheck (ctxOf j) ctx ∧ (j = 0 → ctx = []) ∧ (Stands cs j ctx ∨ ∃ i cfg, i < j ∧ cs[i]? = some cfg ∧ cfg.errors ≠ [] ∧ cfg.parsed = []) := by
  induction j using Nat.strongRecOn with
  | _ j ih =>
    rcases Nat.eq_zero_or_pos j with rfl | hpos
    · exact ⟨[], Or.inl h.main, fun _ => rfl, Or.inl .main⟩
    · obtain ⟨i, cfg, h1, h2, h3⟩ := h.from' hpos hj
      rcases h3 with ⟨h3, h4⟩ | ⟨d, c, h3, h4, h5, h6⟩
      · exact ⟨ctxOf j, Or.inl rfl, fun h => by omega, Or.inr ⟨i, cfg, h1, h2, h3, h4⟩⟩
      · obtain ⟨ctx, g1, -, g3⟩ := ih i h1 (by omega)
        have g1' : SameCheck ctx (ctxOf i) := by
          rcases g1 with g1 | ⟨a, b, c⟩
          · exact Or.inl g1.symm
          · exact Or.inr ⟨a.symm, c, b⟩
        obtain ⟨c', k1, k2⟩ := SameCheck.at' h3 g1'
        have k2' : SameCheck c c' := by
          rcases k2 with k2 | ⟨a, b, c⟩
          · exact Or.inl k2.symm
          · exact Or.inr ⟨a.symm, c, b⟩
        refine ⟨c', h6.sameCheck k2', fun h => by omega, ?_⟩
        rcases g3 with g3 | ⟨i', cfg', g3, g4⟩
        · exact Or.inl (.incl g3 h2 k1 h4 h5)
        · exact Or.inr ⟨i', cfg', by omega, g4⟩

/-- **C26**.  Every directive of every config was accepted by the statement check in the block context where it stands: the blocks around it in its file, in the
blocks around the include directive of its file, and so on.  (If the tree of a file was given up after an error, its include directives are not in the payload; the
context of files included only there is then left open.) -/
theorem C26_standing {env : Env} {fuel : Nat} {filename : Str} {o : ParseOptions} {p : Payload} (h : Parse env fuel filename o = .ok p)
    (ho : o.combineConfigs = false) {j : Nat} {cfg : Config} (hj : p.config[j]? = some cfg) :
    ∃ ctx : List Str, (j = 0 → ctx = []) ∧
      (Stands p.config j ctx ∨ ∃ i cfg', i < j ∧ p.config[i]? = some cfg' ∧ cfg'.errors ≠ [] ∧ cfg'.parsed = []) ∧
      ∀ d c, At d ctx cfg.parsed c → ¬ IsComment d → d.isMapBlockParameter = false →
        ∃ args term, CheckedArgs d args ∧ (term = c!";" ∨ term = c!"{" ∨ term = c!"}") ∧ (term = c!"{" ↔ d.block ≠ none) ∧
          analyze cfg.file ⟨d.directive, d.line, args, d.file, none, none, none, false⟩ term c o = none := by
  obtain ⟨cs, ps', h1, -, h3, -⟩ := Parse_ok h
  obtain rfl := h3 ho
  obtain ⟨ctxOf, hx⟩ := h1.ctxOf
  obtain ⟨ctx, g1, g2, g3⟩ := hx.sameCheck j (List.getElem?_eq_some_iff.mp hj).1
  refine ⟨ctx, g2, g3, fun d c hd hc hp => ?_⟩
  obtain ⟨c', k1, k2⟩ := SameCheck.at' hd g1
  obtain ⟨args, term, a1, a2, a3, a4⟩ := (node_checked (hx.node hj d c' k1) hc hp).2
  exact ⟨args, term, a1, a2, a3, (k2.analyze _ _ _ _).mp a4⟩

/-- **C26** for a payload without errors. -/
theorem C26_standing_ok {env : Env} {fuel : Nat} {filename : Str} {o : ParseOptions} {p : Payload} (h : Parse env fuel filename o = .ok p)
    (ho : o.combineConfigs = false) (he : ∀ c ∈ p.config, c.errors = []) {j : Nat} {cfg : Config} (hj : p.config[j]? = some cfg) :
    ∃ ctx : List Str, Stands p.config j ctx ∧ ∀ d c, At d ctx cfg.parsed c → ¬ IsComment d → d.isMapBlockParameter = false →
      ∃ args term, CheckedArgs d args ∧ (term = c!";" ∨ term = c!"{" ∨ term = c!"}") ∧ (term = c!"{" ↔ d.block ≠ none) ∧
        analyze cfg.file ⟨d.directive, d.line, args, d.file, none, none, none, false⟩ term c o = none := by
  obtain ⟨ctx, -, h2, h3⟩ := C26_standing h ho hj
  refine ⟨ctx, ?_, h3⟩
  rcases h2 with h2 | ⟨i, cfg', -, h4, h5, -⟩
  · exact h2
  · exact absurd (he _ (List.mem_of_getElem? h4)) h5

/-- The directive `include b` stands in `http` of the first file of `exThree`, so the file `b` does, and its `server` was accepted there. -/
example : Stands exThreePay.config 2 [c!"http"] ∧ ∃ ctx, Stands exThreePay.config 2 ctx ∧ ∃ args term, CheckedArgs (blk c!"server" 1 [] []) args ∧
    (term = c!"{" ↔ True) ∧ analyze c!"/e/b" ⟨c!"server", 1, args, [], none, none, none, false⟩ term ctx exOpts = none := by
  refine ⟨.incl .main rfl (.deep (d' := blk c!"http" 3 [] [incl 3 c!"b" [2]]) (by simp) rfl (.here (List.mem_singleton.mpr rfl))) ⟨rfl, by simp [incl]⟩ (by simp [incl]), ?_⟩
  obtain ⟨ctx, h1, h2⟩ := C26_standing_ok exThree_parse rfl (by decide) (j := 2) rfl
  obtain ⟨args, term, h3, -, h4, h5⟩ := h2 (blk c!"server" 1 [] []) ctx (.here (List.mem_singleton.mpr rfl)) (by simp [IsComment, blk]) rfl
  exact ⟨ctx, h1, args, term, h3, by simpa [blk] using h4, h5⟩

/-- Four blocks deep the check knows nothing: `listen` is accepted wherever it stands. -/
example : SameCheck [c!"http", c!"server", c!"a", c!"b"] [c!"http", c!"x", c!"y", c!"z"] ∧ ¬ SameCheck [c!"http", c!"server", c!"if"] [c!"http", c!"location", c!"if"] :=
  ⟨Or.inr ⟨rfl, by decide, by decide⟩, by rintro (h | ⟨-, h, -⟩) <;> revert h <;> decide⟩

end Verif
