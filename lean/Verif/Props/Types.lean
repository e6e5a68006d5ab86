import Verif.Proofs.Tree
/-!
# C50, C52: `Directive.Equal` and the text of errors
-/
namespace Verif
open Spec

/-! ## C50 -/

/-- C50.  `Equal` holds iff both pointers are nil or both directives have the same contents at every depth, nil and empty
lists not being told apart. -/
theorem C50_equal_iff (a b : Option Directive) : Directive.equalPtr a b = true ↔ a.map fill = b.map fill := by
  cases a <;> cases b <;> simp [Directive.equalPtr, equal_iff]

theorem C50_refl (a : Option Directive) : Directive.equalPtr a a = true := (C50_equal_iff a a).mpr rfl

theorem C50_symm (a b : Option Directive) : Directive.equalPtr a b = Directive.equalPtr b a := by
  rw [Bool.eq_iff_iff, C50_equal_iff, C50_equal_iff, eq_comm]

theorem C50_trans (a b c : Option Directive) (h1 : Directive.equalPtr a b = true) (h2 : Directive.equalPtr b c = true) :
    Directive.equalPtr a c = true := by
  rw [C50_equal_iff] at *; exact h1.trans h2

/-- C50.  One level of the meaning: same own fields, same include indices, and blocks of the same length that are pairwise
`Equal`. -/
theorem C50_fields (a b : Directive) :
    Directive.equalPtr (some a) (some b) = true ↔
    a.directive = b.directive ∧ a.line = b.line ∧ a.args = b.args ∧ a.file = b.file ∧
    a.includes.getD [] = b.includes.getD [] ∧ a.comment = b.comment ∧ a.isMapBlockParameter = b.isMapBlockParameter ∧
    (a.block.getD []).length = (b.block.getD []).length ∧
    ∀ i (h : i < (a.block.getD []).length) (h' : i < (b.block.getD []).length),
      Directive.equalPtr (some (a.block.getD [])[i]) (some (b.block.getD [])[i]) = true := by
  simp only [C50_equal_iff, Option.map_some, Option.some.injEq]
  rw [fill_eta a, fill_eta b]
  simp only [Directive.mk.injEq, Option.some.injEq]
  constructor
  · rintro ⟨h1, h2, h3, h4, h5, h6, h7, h8⟩
    refine ⟨h1, h2, h3, h4, h5, h7, h8, by simpa using congrArg List.length h6, fun i h h' => ?_⟩
    have := List.getElem_of_eq h6 (by simpa using h)
    simpa using this
  · rintro ⟨h1, h2, h3, h4, h5, h7, h8, h9, h10⟩
    refine ⟨h1, h2, h3, h4, h5, ?_, h7, h8⟩
    apply List.ext_getElem (by simpa using h9)
    intro i hi hi'
    simp only [List.length_map] at hi hi'
    simpa using h10 i hi hi'

/-- A nil block equals an empty one, a different line is different. -/
example : Directive.equalPtr (some ⟨c!"a", 1, [], [], none, none, none, false⟩)
      (some ⟨c!"a", 1, [], [], none, some [], none, false⟩) = true ∧
    Directive.equalPtr (some ⟨c!"a", 1, [], [], none, some [⟨c!"b", 1, [], [], none, none, none, false⟩], none, false⟩)
      (some ⟨c!"a", 1, [], [], none, some [⟨c!"b", 2, [], [], none, none, none, false⟩], none, false⟩) = false := by
  constructor <;> simp [Directive.equalPtr, Directive.equal, Directive.equalOpt, Directive.equalList, equalsStrs, strPtrEqual]

/-! ## C52 -/

/-- C52.  The text of an error. -/
theorem C52_text (e : ParseError) : e.error = errorText e.what e.file e.line := by
  unfold ParseError.error errorText
  cases e.file <;> cases e.line <;> simp

/-- C52.  Without file, and with file and line. -/
theorem C52_text_cases (what f : Str) (l : Int) (stmt blk : Str) (o : Option Str) :
    ParseError.error ⟨what, none, none, stmt, blk, o⟩ = what ++ c!" in (nofile)" ∧
    ParseError.error ⟨what, none, some l, stmt, blk, o⟩ = what ++ c!" in (nofile):" ++ decimal l ∧
    ParseError.error ⟨what, some f, none, stmt, blk, o⟩ = what ++ c!" in " ++ f ∧
    ParseError.error ⟨what, some f, some l, stmt, blk, o⟩ = what ++ c!" in " ++ f ++ c!":" ++ decimal l := by
  refine ⟨?_, ?_, ?_, ?_⟩ <;> simp [ParseError.error]

example : ParseError.error ⟨c!"boom", some c!"nginx.conf", some (-12), [], [], none⟩ = c!"boom in nginx.conf:-12" := by decide

end Verif
