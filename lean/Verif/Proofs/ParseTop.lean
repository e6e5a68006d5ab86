import Verif.Proofs.ParseTree
import Verif.Props.Combine
/-!
# `Parse` in terms of runs
-/
namespace Verif
open Spec

/-- The payload before combining. -/
def rawPayload (ps : PS) (cs : List Config) : Payload := { status := ps.payStatus, errors := ps.payErrors, config := cs }

/-- How `Parse` ends, in terms of the worklist loop. -/
theorem Parse_eq (env : Env) (fuel : Nat) (filename : Str) (o : ParseOptions) :
    (∃ cs ps', FilesOk env o (env.dir filename) (initPS filename) cs ps' ∧
      Parse env fuel filename o =
        if isAcyclic env ps' then .err cycleError
        else if o.combineConfigs then combined (cs.length + 1) (rawPayload ps' cs) else .ok (rawPayload ps' cs)) ∨
    (∃ e ps', FilesFail env o (env.dir filename) (initPS filename) e ps' ∧ Parse env fuel filename o = failRes e) ∨
    (∃ ps', FilesMore env o (env.dir filename) fuel (initPS filename) ps' ∧ Parse env fuel filename o = .fuel) := by
  unfold Parse
  rcases parseFiles_run env o (env.dir filename) fuel (initPS filename) [] with ⟨cs, ps', h1, h2⟩ | ⟨e, ps', h1, h2⟩ | ⟨ps', h1, h2⟩
  · exact Or.inl ⟨cs, ps', h1, by rw [h2]; rfl⟩
  · refine Or.inr (Or.inl ⟨e, ps', h1, ?_⟩)
    rw [h2]
    cases e <;> rfl
  · exact Or.inr (Or.inr ⟨ps', h1, by rw [h2]⟩)

theorem Parse_ok {env : Env} {fuel : Nat} {filename : Str} {o : ParseOptions} {p : Payload} (h : Parse env fuel filename o = .ok p) :
    ∃ cs ps', FilesOk env o (env.dir filename) (initPS filename) cs ps' ∧ isAcyclic env ps' = false ∧
      (o.combineConfigs = false → p = rawPayload ps' cs) ∧
      (o.combineConfigs = true → combined (cs.length + 1) (rawPayload ps' cs) = .ok p) := by
  rcases Parse_eq env fuel filename o with ⟨cs, ps', h1, h2⟩ | ⟨e, ps', h1, h2⟩ | ⟨ps', h1, h2⟩
  · rw [h] at h2
    refine ⟨cs, ps', h1, ?_⟩
    cases ha : isAcyclic env ps' with
    | true => rw [ha] at h2; simp at h2
    | false =>
      rw [ha] at h2
      simp only [Bool.false_eq_true, if_false] at h2
      refine ⟨rfl, fun hc => ?_, fun hc => ?_⟩
      · rw [hc] at h2; simpa using h2
      · rw [hc] at h2; simpa using h2.symm
  · rw [h] at h2; cases e <;> cases h2
  · rw [h] at h2; cases h2

/-- The worklist loop adds the configs of its files, the first of them for the head of the worklist. -/
theorem FilesOk.ne_nil {env : Env} {o : ParseOptions} {configDir : Str} {ps ps' : PS} {cs : List Config}
    (h : FilesOk env o configDir ps cs ps') (incl : FileCtx) (rest : List FileCtx) (hi : ps.includes = incl :: rest) :
    ∃ c0 cs', cs = c0 :: cs' ∧ c0.file = incl.path := by
  cases h with
  | nil ps h => rw [h] at hi; cases hi
  | ok ps incl' rest' data ds toks' ps1 cs ps' hi' => rw [hi] at hi'; cases hi'; exact ⟨_, _, rfl, rfl⟩
  | bad ps incl' rest' data e toks' ps1 cs ps' hi' => rw [hi] at hi'; cases hi'; exact ⟨_, _, rfl, rfl⟩

theorem expandsBlock_isSome {cs : List Config} {o o' : Option (List Directive)} (h : ExpandsBlock cs o o') : o.isSome = o'.isSome := by
  cases h <;> rfl

mutual
/-- Every directive of an expansion is one of the original ones, up to the contents of its block, which is expanded. -/
theorem expands_origin {cs : List Config} : ∀ {ds out}, Expands cs ds out → ∀ d, Within d out →
    ∃ d', d = { d' with block := d.block } ∧ ExpandsBlock cs d'.block d.block ∧ (Within d' ds ∨ ∃ c ∈ cs, Within d' c.parsed)
  | _, _, .nil, d, h => absurd h within_nil
  | _, _, .keep (d := d0) (ds := ds0) hn hb hr, d, h => by
    rcases within_cons.mp h with rfl | ⟨b, h1, h2⟩ | h
    · exact ⟨d0, by cases d0; rfl, hb, Or.inl (.here (by simp))⟩
    · obtain ⟨d', h3, h4, h5⟩ := expandsBlock_origin hb b h1 d h2
      refine ⟨d', h3, h4, ?_⟩
      rcases h5 with ⟨b0, hb0, h5⟩ | h5
      · exact Or.inl (.deep (by simp) hb0 h5)
      · exact Or.inr h5
    · obtain ⟨d', h3, h4, h5⟩ := expands_origin hr d h
      refine ⟨d', h3, h4, ?_⟩
      rcases h5 with h5 | h5
      · exact Or.inl h5.cons
      · exact Or.inr h5
  | _, _, .incl (d := d0) hn hb hi hr, d, h => by
    rcases within_append.mp h with h | h
    · obtain ⟨d', h3, h4, h5⟩ := inlines_origin hi d h
      exact ⟨d', h3, h4, Or.inr h5⟩
    · obtain ⟨d', h3, h4, h5⟩ := expands_origin hr d h
      refine ⟨d', h3, h4, ?_⟩
      rcases h5 with h5 | h5
      · exact Or.inl h5.cons
      · exact Or.inr h5
theorem expandsBlock_origin {cs : List Config} : ∀ {o o'}, ExpandsBlock cs o o' → ∀ b, o' = some b → ∀ d, Within d b →
    ∃ d', d = { d' with block := d.block } ∧ ExpandsBlock cs d'.block d.block ∧
      ((∃ b0, o = some b0 ∧ Within d' b0) ∨ ∃ c ∈ cs, Within d' c.parsed)
  | _, _, .none, b, hb, _, _ => by cases hb
  | _, _, .some (ds := ds) h, b, hb, d, hd => by
    cases hb
    obtain ⟨d', h3, h4, h5⟩ := expands_origin h d hd
    refine ⟨d', h3, h4, ?_⟩
    rcases h5 with h5 | h5
    · exact Or.inl ⟨ds, rfl, h5⟩
    · exact Or.inr h5
theorem inlines_origin {cs : List Config} : ∀ {is out}, Inlines cs is out → ∀ d, Within d out →
    ∃ d', d = { d' with block := d.block } ∧ ExpandsBlock cs d'.block d.block ∧ ∃ c ∈ cs, Within d' c.parsed
  | _, _, .nil, d, h => absurd h within_nil
  | _, _, .cons (c := c) hi he hr, d, h => by
    rcases within_append.mp h with h | h
    · obtain ⟨d', h3, h4, h5⟩ := expands_origin he d h
      refine ⟨d', h3, h4, ?_⟩
      rcases h5 with h5 | h5
      · exact ⟨c, List.mem_of_getElem? hi, h5⟩
      · exact h5
    · exact inlines_origin hr d h
end

/-- What is known of a directive does not depend on what is in its block. -/
theorem Node.setBlock {env : Env} {o : ParseOptions} {configDir file : Str} {inc : List (Str × Int)} {c : List Str} {d : Directive}
    (h : Node env o configDir file inc c d) (b : Option (List Directive)) (hb : d.block.isSome = b.isSome) :
    Node env o configDir file inc c { d with block := b } := by
  cases h with
  | comment line text h =>
    cases b with
    | none => exact .comment line text h
    | some b => cases hb
  | param t args m h1 h2 h3 =>
    cases b with
    | none => exact .param t args m h1 h2 h3
    | some b => cases hb
  | stmt t args term stmt is block h1 h2 h3 h4 h5 h6 h7 h8 =>
    refine .stmt t args term stmt is b h1 h2 h3 h4 h5 h6 h7 ?_
    rw [← hb]; exact h8

/-- Every directive of a payload, combined or not, is known. -/
theorem Parse_nodes {env : Env} {fuel : Nat} {filename : Str} {o : ParseOptions} {p : Payload} (h : Parse env fuel filename o = .ok p) :
    ∀ cfg ∈ p.config, ∀ d, Within d cfg.parsed → ∃ file inc c, Node env o (env.dir filename) file inc c d := by
  obtain ⟨cs, ps', h1, -, h3, h4⟩ := Parse_ok h
  have hn := h1.nodes.2
  intro cfg hc d hd
  cases hcomb : o.combineConfigs with
  | false =>
    rw [h3 hcomb] at hc
    obtain ⟨ctx, hctx⟩ := hn cfg hc
    obtain ⟨c, hat⟩ := within_at hd ctx
    exact ⟨_, _, c, hctx d c hat⟩
  | true =>
    obtain ⟨c0, cs', hcs, -⟩ := h1.ne_nil _ _ rfl
    obtain ⟨out, st, he, -, rfl⟩ := (C35_combined_iff (rawPayload ps' cs) p c0 cs' hcs).mp ⟨_, h4 hcomb⟩
    obtain rfl := List.mem_singleton.mp hc
    obtain ⟨d', e1, e2, e3⟩ := expands_origin he d hd
    have hw : ∃ c ∈ cs, Within d' c.parsed := by
      rcases e3 with e3 | e3
      · exact ⟨c0, by rw [hcs]; simp, e3⟩
      · exact e3
    obtain ⟨cfg', hc', hd'⟩ := hw
    obtain ⟨ctx, hctx⟩ := hn cfg' hc'
    obtain ⟨c, hat⟩ := within_at hd' ctx
    have := (hctx d' c hat).setBlock d.block (expandsBlock_isSome e2)
    rw [← e1] at this
    exact ⟨_, _, c, this⟩

end Verif
