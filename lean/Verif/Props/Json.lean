import Verif.Model.Json
import Verif.Model.Build
import Verif.Proofs.Tree
/-!
# C51: JSON
-/
namespace Verif
open Spec

theorem stripList_eq (ds : List Directive) : stripList ds = ds.map strip := by
  induction ds with
  | nil => rfl
  | cons d ds ih => rw [stripList, ih]; rfl

theorem decStrs_str (l : List Str) : decStrs (.arr (l.map .str)) = some l := by
  unfold decStrs
  induction l with
  | nil => rfl
  | cons a l ih =>
    simp only [List.map_cons, List.mapM_cons] at ih ⊢
    rw [ih]; rfl

theorem decInts_num (l : List Int) : decInts (.arr (l.map .num)) = some (some l) := by
  have : (l.map JVal.num).mapM (decInt 0) = some l := by
    induction l with
    | nil => rfl
    | cons a l ih =>
      simp only [List.map_cons, List.mapM_cons] at ih ⊢
      rw [ih]; rfl
  unfold decInts
  simp only [this]; rfl

theorem decDirectives_enc (ds : List Directive) (h : ∀ d ∈ ds, decDirective (encDirective d) = some (strip d)) :
    decDirectives (encDirectives ds) = some (stripList ds) := by
  induction ds with
  | nil => rw [encDirectives, decDirectives, stripList]
  | cons d ds ih =>
    rw [encDirectives, decDirectives, stripList, h d List.mem_cons_self, ih fun d hd => h d (List.mem_cons_of_mem _ hd)]
    rfl

/-- C51.  What is decoded is the directive with its empty lists turned into nil ones, at every depth. -/
theorem C51_decoded (d : Directive) : decDirective (encDirective d) = some (strip d) := by
  induction d using Directive.ind with
  | h dd dl dargs df dincl dblock dcomm dmap ih =>
    rw [encDirective.eq_def, decDirective]
    have hfields : ∀ (fs : List (Str × JVal)) (d0 : Directive) (k : Str) (v : JVal),
      decFields d0 ((k, v) :: fs) = (do
        let d ←
          if k == c!"directive" then (decStr d0.directive v).map fun x => { d0 with directive := x }
          else if k == c!"line" then (decInt d0.line v).map fun x => { d0 with line := x }
          else if k == c!"args" then (decStrs v).map fun x => { d0 with args := x }
          else if k == c!"file" then (decStr d0.file v).map fun x => { d0 with file := x }
          else if k == c!"includes" then (decInts v).map fun x => { d0 with includes := x }
          else if k == c!"block" then (decBlock v).map fun x => { d0 with block := x }
          else if k == c!"comment" then (decStrPtr v).map fun x => { d0 with comment := x }
          else if k == c!"mapBlockParameter" then
            (decBool d0.isMapBlockParameter v).map fun x => { d0 with isMapBlockParameter := x }
          else some d0
        decFields d fs) := by
      intro fs d0 k v; rw [decFields]
    have hblock : ∀ rest d0, d0.block = none →
        decFields d0 (encBlock dblock ++ rest) = decFields { d0 with block := stripOpt dblock } rest := by
      intro rest d0 hd0
      cases dblock with
      | none =>
        rw [encBlock, stripOpt, List.nil_append]
        congr 1
        rw [← hd0, Directive.eta]
      | some ds =>
        cases ds with
        | nil =>
          rw [encBlock, encDirectives, stripOpt]
          simp only [List.nil_append]
          congr 1
          rw [← hd0, Directive.eta]
        | cons x xs =>
          have := decDirectives_enc (x :: xs) (fun d hd => ih _ rfl d hd)
          rw [encBlock, encDirectives, stripOpt]
          rw [encDirectives, stripList] at this
          simp only [List.cons_append, List.nil_append]
          rw [hfields]
          have hb : decBlock (.arr (encDirective x :: encDirectives xs)) = some (some (strip x :: stripList xs)) := by
            rw [decBlock, this]; rfl
          simp [hb]
    rw [strip]
    simp only [List.append_assoc, List.cons_append, List.nil_append]
    simp only [hfields, decStr, decInt, decStrs_str]
    simp only [beq_self_eq_true, Option.map_some, Option.bind_eq_bind, Option.bind_some, if_true]
    have e1 : ((c!"line" : Str) == c!"directive") = false := by decide
    have e2 : ((c!"args" : Str) == c!"directive") = false := by decide
    have e3 : ((c!"args" : Str) == c!"line") = false := by decide
    simp only [e1, e2, e3, Bool.false_eq_true, if_false, Option.bind_some]
    have hfile : ∀ rest d0, d0.file = [] → decFields d0 ((if df == [] then [] else [(c!"file", JVal.str df)]) ++ rest) =
        decFields { d0 with file := df } rest := by
      intro rest d0 h0
      by_cases hdf : df = []
      · subst hdf
        simp only [beq_self_eq_true, if_true, List.nil_append]
        congr 1; rw [← h0, Directive.eta]
      · have : (df == []) = false := by simpa using hdf
        simp only [this, Bool.false_eq_true, if_false, List.cons_append, List.nil_append]
        rw [hfields]; rfl
    have hincl : ∀ rest d0, d0.includes = none → decFields d0 ((match dincl with
        | none => []
        | some [] => []
        | some (i :: is) => [(c!"includes", .arr ((i :: is).map .num))]) ++ rest) =
        decFields { d0 with includes := if dincl = some [] then none else dincl } rest := by
      intro rest d0 h0
      match dincl with
      | none =>
        simp only [List.nil_append, reduceCtorEq, if_false]
        congr 1; rw [← h0, Directive.eta]
      | some [] =>
        simp only [List.nil_append, if_true]
        congr 1; rw [← h0, Directive.eta]
      | some (i :: is) =>
        simp only [List.cons_append, List.nil_append]
        rw [hfields, decInts_num]
        simp
    have hcomm : ∀ rest d0, d0.comment = none → decFields d0 ((match dcomm with | none => [] | some c => [(c!"comment", .str c)]) ++ rest) =
        decFields { d0 with comment := dcomm } rest := by
      intro rest d0 h0
      cases dcomm with
      | none =>
        simp only [List.nil_append]
        congr 1; rw [← h0, Directive.eta]
      | some c =>
        simp only [List.cons_append, List.nil_append]
        rw [hfields]; simp [decStrPtr]
    have hmap : ∀ d0, d0.isMapBlockParameter = false → decFields d0 (if dmap then [(c!"mapBlockParameter", .bool true)] else []) =
        some { d0 with isMapBlockParameter := dmap } := by
      intro d0 h0
      cases dmap with
      | false =>
        simp only [Bool.false_eq_true, if_false, decFields]
        congr 1; rw [← h0, Directive.eta]
      | true =>
        simp only [if_true]
        rw [hfields]; simp [decBool, decFields]
    refine (hfile _ _ rfl).trans ((hincl _ _ rfl).trans ((hblock _ _ rfl).trans ((hcomm _ _ rfl).trans ((hmap _ rfl).trans ?_))))
    rfl

theorem fill_strip (d : Directive) : fill (strip d) = fill d := by
  induction d using Directive.ind with
  | h dd dl dargs df dincl dblock dcomm dmap ih =>
    rw [strip, fill_mk, fill_mk]
    have h1 : (if dincl = some [] then none else dincl).getD [] = dincl.getD [] := by
      split
      · rename_i h; rw [h]; rfl
      · rfl
    have h2 : ((stripOpt dblock).getD []).map fill = (dblock.getD []).map fill := by
      match dblock, ih with
      | none, _ => rfl
      | some [], _ => rfl
      | some (d :: ds), ih =>
        rw [stripOpt, stripList_eq]
        simp only [Option.getD_some, List.map_cons, List.map_map]
        rw [ih _ rfl d List.mem_cons_self]
        congr 1
        apply List.map_congr_left
        intro a ha
        exact ih _ rfl a (List.mem_cons_of_mem _ ha)
    rw [h1, h2]

theorem strip_of_noEmpty (d : Directive) (h : NoEmpty d) : strip d = d := by
  induction d using Directive.ind with
  | h dd dl dargs df dincl dblock dcomm dmap ih =>
    obtain ⟨_, h1, h2, h3⟩ := h
    simp only at h1 h2 h3
    rw [strip, if_neg h1]
    congr 1
    match dblock, ih, h2, h3 with
    | none, _, _, _ => rfl
    | some [], _, h2, _ => exact absurd rfl h2
    | some (d :: ds), ih, _, h3 =>
      rw [stripOpt, stripList_eq, ih _ rfl d List.mem_cons_self (h3 _ rfl d List.mem_cons_self)]
      congr 2
      conv => rhs; rw [← List.map_id ds]
      apply List.map_congr_left
      intro a ha
      exact ih _ rfl a (List.mem_cons_of_mem _ ha) (h3 _ rfl a (List.mem_cons_of_mem _ ha))

/-- C51.  Decoding never fails and the decoded directive is `Equal` to the encoded one. -/
theorem C51_equal (d : Directive) : ∃ d', decDirective (encDirective d) = some d' ∧ Directive.equalPtr (some d) (some d') = true := by
  refine ⟨strip d, C51_decoded d, ?_⟩
  rw [Directive.equalPtr, equal_iff, fill_strip]

/-- C51 for trees without empty blocks and include lists: nothing is lost.  The full property has no `NoEmpty` hypothesis; it is
false (`C51_false`). -/
theorem C51_partial (d : Directive) (h : NoEmpty d) : decDirective (encDirective d) = some d := by
  rw [C51_decoded, strip_of_noEmpty d h]

theorem decConfig_enc (c : Config) (h : c.errors = []) :
    decConfig (encConfig c) = some { c with parsed := c.parsed.map strip } := by
  have hp : decDirectives (encDirectives c.parsed) = some (c.parsed.map strip) := by
    rw [decDirectives_enc _ fun d _ => C51_decoded d, stripList_eq]
  have hb : decBlock (.arr (encDirectives c.parsed)) = some (some (c.parsed.map strip)) := by
    rw [decBlock, hp]; rfl
  simp [encConfig, decConfig, decConfigFields, h, hb, decStr, decErrors]

theorem decConfig_errors (c : Config) (h : c.errors ≠ []) : decConfig (encConfig c) = none := by
  cases hc : c.errors with
  | nil => exact absurd hc h
  | cons e es => simp [encConfig, decConfig, decConfigFields, hc, decStr, decErrors]

/-- C51.  A payload is decoded iff it has no errors, and then only the empty lists have become nil. -/
theorem C51_payload (p : Payload) :
    decPayload (encPayload p) =
      if p.errors = [] ∧ ∀ c ∈ p.config, c.errors = [] then
        some { p with config := p.config.map fun c => { c with parsed := c.parsed.map strip } }
      else none := by
  by_cases h1 : p.errors = []
  · by_cases h2 : ∀ c ∈ p.config, c.errors = []
    · have hm : (p.config.map encConfig).mapM decConfig = some (p.config.map fun c => { c with parsed := c.parsed.map strip }) := by
        generalize p.config = l at h2
        induction l with
        | nil => rfl
        | cons c l ih =>
          rw [List.map_cons, List.mapM_cons, decConfig_enc c (h2 c List.mem_cons_self), ih fun c hc => h2 c (List.mem_cons_of_mem _ hc)]
          rfl
      rw [if_pos ⟨h1, h2⟩]
      simp [encPayload, decPayload, decPayloadFields, h1, decStr, decErrors, hm]
    · have hm : (p.config.map encConfig).mapM decConfig = none := by
        generalize p.config = l at h2
        induction l with
        | nil => simp at h2
        | cons c l ih =>
          rw [List.map_cons, List.mapM_cons]
          by_cases hc : c.errors = []
          · rw [decConfig_enc c hc, ih (by simpa [hc] using h2)]; rfl
          · rw [decConfig_errors c hc]; rfl
      rw [if_neg (fun h => h2 h.2)]
      simp [encPayload, decPayload, decPayloadFields, h1, decStr, decErrors, hm]
  · rw [if_neg (fun h => h1 h.1)]
    cases hp : p.errors with
    | nil => exact absurd hp h1
    | cons e es => simp [encPayload, decPayload, decPayloadFields, hp, decStr, decErrors]

/-- C51 is false: `events {}` is decoded as a directive without block, and built as `events;`. -/
theorem C51_false (isPrint : Char → Bool) :
    ∃ d d', decDirective (encDirective d) = some d' ∧ d' ≠ d ∧
      buildText isPrint { file := [], parsed := [d] } {} = some c!"events {\n}" ∧
      buildText isPrint { file := [], parsed := [d'] } {} = some c!"events;" := by
  refine ⟨⟨c!"events", 1, [], [], none, some [], none, false⟩, _, C51_decoded _, ?_, ?_, ?_⟩
  · rw [strip, stripOpt]; intro h; cases h
  · rfl
  · rfl

/-- A nested tree keeps everything. -/
example : decDirective (encDirective ⟨c!"http", 1, [], [], none,
      some [⟨c!"include", 2, [c!"a"], c!"f", some [1, 2], none, none, false⟩, ⟨c!"#", 3, [], [], none, none, some c!"x", true⟩], none, false⟩) =
    some ⟨c!"http", 1, [], [], none,
      some [⟨c!"include", 2, [c!"a"], c!"f", some [1, 2], none, none, false⟩, ⟨c!"#", 3, [], [], none, none, some c!"x", true⟩], none, false⟩ := by
  rfl

end Verif
