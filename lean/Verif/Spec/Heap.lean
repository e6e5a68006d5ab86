import Verif.Model.Heap
import Mathlib.Data.List.Forall2
/-!
# What is in memory

How objects in memory are read as directives and payloads, and which objects belong to a list of directives.
-/
namespace Verif.Spec

/-- The array of `Includes`. -/
def RInts (h : Heap) : Option Nat → Option (List Int) → Prop
  | none, l => l = none
  | some a, l => ∃ is, h[a]? = some (.ints is) ∧ l = some is

/-- The string of `Comment`. -/
def RText (h : Heap) : Option Nat → Option Str → Prop
  | none, s => s = none
  | some a, s => ∃ t, h[a]? = some (.text t) ∧ s = some t

mutual
/-- The directive that these fields stand for. -/
def RCell (h : Heap) (c : Cell) : Directive → Prop
  | ⟨dd, dl, dargs, df, dincl, dblock, dcomm, dmap⟩ =>
    c.directive = dd ∧ c.line = dl ∧ h[c.args]? = some (.strs dargs) ∧ c.file = df ∧ RInts h c.includes dincl ∧ ROpt h c.block dblock ∧ RText h c.comment dcomm ∧
      c.isMapBlockParameter = dmap
/-- The block. -/
def ROpt (h : Heap) (b : Option Nat) : Option (List Directive) → Prop
  | none => b = none
  | some ds => ∃ x as, b = some x ∧ h[x]? = some (.ptrs as) ∧ RList h as ds
/-- The directives at these addresses. -/
def RList (h : Heap) (as : List Nat) : List Directive → Prop
  | [] => as = []
  | d :: ds => ∃ a as' c, as = a :: as' ∧ h[a]? = some (.dir c) ∧ RCell h c d ∧ RList h as' ds
end

/-- The config in memory. -/
structure RConfig (h : Heap) (c : HConfig) (cfg : Config) : Prop where
  file : c.file = cfg.file
  status : c.status = cfg.status
  errors : match c.errors with
    | none => cfg.errors = []
    | some e => h[e]? = some (.cfgErrors cfg.errors)
  parsed : ∃ as, h[c.parsed]? = some (.ptrs as) ∧ RList h as cfg.parsed

/-- The payload in memory. -/
structure RPayload (h : Heap) (c : HPayload) (p : Payload) : Prop where
  status : c.status = p.status
  errors : match c.errors with
    | none => p.errors = []
    | some e => h[e]? = some (.payErrors p.errors)
  config : List.Forall₂ (RConfig h) c.config p.config

/-- The directives at `as` have, with those in their blocks, the addresses `l`, together with the addresses of the arrays of their blocks. -/
inductive Owns (h : Heap) : List Nat → List Nat → Prop
  | nil : Owns h [] []
  | leaf {a : Nat} {as l : List Nat} {c : Cell} : h[a]? = some (.dir c) → c.block = none → Owns h as l → Owns h (a :: as) (a :: l)
  | block {a b : Nat} {as bs l l' : List Nat} {c : Cell} : h[a]? = some (.dir c) → c.block = some b → h[b]? = some (.ptrs bs) → Owns h bs l → Owns h as l' →
      Owns h (a :: as) (a :: b :: l ++ l')

end Verif.Spec
