import Verif.Model.Types
/-!
# Expansion of includes
-/
namespace Verif.Spec

/-- An include directive that has been resolved. -/
def IsInclude (d : Directive) : Prop := d.directive = c!"include" ∧ d.includes ≠ none

mutual
/-- `Expands cs ds out`: replacing in `ds` every resolved include, in place and recursively, by the directives of the configs
it names gives `out`.  (The block of an include directive is dropped, but has to be expandable.) -/
inductive Expands (cs : List Config) : List Directive → List Directive → Prop
  | nil : Expands cs [] []
  | keep {d ds b out} : ¬ IsInclude d → ExpandsBlock cs d.block b → Expands cs ds out →
      Expands cs (d :: ds) ({ d with block := b } :: out)
  | incl {d ds b out1 out} : IsInclude d → ExpandsBlock cs d.block b → Inlines cs (d.includes.getD []) out1 →
      Expands cs ds out → Expands cs (d :: ds) (out1 ++ out)
inductive ExpandsBlock (cs : List Config) : Option (List Directive) → Option (List Directive) → Prop
  | none : ExpandsBlock cs none none
  | some {ds out} : Expands cs ds out → ExpandsBlock cs (some ds) (some out)
/-- The directives of the configs with the given indices, expanded, one after the other. -/
inductive Inlines (cs : List Config) : List Int → List Directive → Prop
  | nil : Inlines cs [] []
  | cons {i : Nat} {is c out1 out} : cs[i]? = some c → Expands cs c.parsed out1 → Inlines cs is out →
      Inlines cs ((i : Int) :: is) (out1 ++ out)
end

/-- `d` occurs in `ds`, at any depth. -/
inductive Within (d : Directive) : List Directive → Prop
  | here {ds} : d ∈ ds → Within d ds
  | deep {ds d' b} : d' ∈ ds → d'.block = some b → Within d b → Within d ds

/-- Config `i` contains the resolved include `d` that names index `j`. -/
def Names (cs : List Config) (i : Nat) (d : Directive) (j : Int) : Prop :=
  ∃ c, cs[i]? = some c ∧ Within d c.parsed ∧ IsInclude d ∧ j ∈ d.includes.getD []

/-- Config `i` is reached from config 0 through includes. -/
inductive Reach (cs : List Config) : Nat → Prop
  | zero : Reach cs 0
  | step {i j d} : Reach cs i → Names cs i d ((j : Nat) : Int) → Reach cs j

end Verif.Spec
