import Verif.Proofs.Tree
/-!
# Equality of directive trees is decidable

Used by the examples only.
-/
namespace Verif

mutual
def Directive.same : Directive → Directive → Bool
  | ⟨d, l, a, f, i, b, c, m⟩, x =>
    x.directive == d && x.line == l && x.args == a && x.file == f && x.includes == i && x.comment == c &&
    x.isMapBlockParameter == m && Directive.sameOpt b x.block
def Directive.sameOpt : Option (List Directive) → Option (List Directive) → Bool
  | none, none => true
  | some ds, some es => Directive.sameList ds es
  | _, _ => false
def Directive.sameList : List Directive → List Directive → Bool
  | [], [] => true
  | d :: ds, e :: es => Directive.same d e && Directive.sameList ds es
  | _, _ => false
end

theorem sameList_iff (ds : List Directive) (ih : ∀ d ∈ ds, ∀ e, d.same e = true ↔ d = e) (es : List Directive) :
    Directive.sameList ds es = true ↔ ds = es := by
  induction ds generalizing es with
  | nil => cases es <;> simp [Directive.sameList]
  | cons d ds ih2 =>
    cases es with
    | nil => simp [Directive.sameList]
    | cons e es =>
      rw [Directive.sameList, Bool.and_eq_true, ih d (by simp), ih2 (fun d hd => ih d (by simp [hd]))]
      simp

theorem same_iff (d : Directive) : ∀ e, d.same e = true ↔ d = e := by
  induction d using Directive.ind with
  | h dd dl dargs df dincl dblock dcomm dmap ih =>
    intro ⟨ed, el, eargs, ef, eincl, eblock, ecomm, emap⟩
    rw [Directive.same]
    have hb : Directive.sameOpt dblock eblock = true ↔ dblock = eblock := by
      cases dblock with
      | none => cases eblock <;> simp [Directive.sameOpt]
      | some ds =>
        cases eblock with
        | none => simp [Directive.sameOpt]
        | some es => rw [Directive.sameOpt, sameList_iff ds (ih ds rfl)]; simp
    simp only [Bool.and_eq_true, beq_iff_eq, hb, Directive.mk.injEq]
    constructor
    · rintro ⟨⟨⟨⟨⟨⟨⟨h1, h2⟩, h3⟩, h4⟩, h5⟩, h6⟩, h7⟩, h8⟩
      exact ⟨h1.symm, h2.symm, h3.symm, h4.symm, h5.symm, h8, h6.symm, h7.symm⟩
    · rintro ⟨h1, h2, h3, h4, h5, h8, h6, h7⟩
      exact ⟨⟨⟨⟨⟨⟨⟨h1.symm, h2.symm⟩, h3.symm⟩, h4.symm⟩, h5.symm⟩, h6.symm⟩, h7.symm⟩, h8⟩

instance : DecidableEq Directive := fun d e => decidable_of_iff _ (same_iff d e)
deriving instance DecidableEq for Config
deriving instance DecidableEq for Payload
deriving instance DecidableEq for Res

end Verif
