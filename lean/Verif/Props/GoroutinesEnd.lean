import Verif.Props.Goroutines
import Verif.Spec.Expand
import Mathlib.Order.WellFounded
import Mathlib.Data.Fintype.Card
import Mathlib.Order.RelIso.Basic
/-!
# C64: every schedule of the goroutines ends

For configs that do not include each other in a circle there is a bound on the number of steps of all schedules, also of those that return an error and leave goroutines behind.
-/
namespace Verif
open Verif.Spec

/-- The items that the goroutine of an included config sends at most. -/
def idxItems (n : Nat) (f : Nat → Nat) (idx : Int) : Nat := if 0 ≤ idx ∧ idx < n then f idx.toNat else 1

/-- The steps for an index of an include directive. -/
def idxWork (n : Nat) (f : Nat → Nat) (idx : Int) : Nat := 2 + if 0 ≤ idx ∧ idx < n then f idx.toNat + f idx.toNat else 0

def emitItems (n : Nat) (f : Nat → Nat) (name : Str) (includes : Option (List Int)) : Nat :=
  1 + if name = c!"include" ∧ includes ≠ none then ((includes.getD []).map (idxItems n f)).sum else 0

def emitWork (n : Nat) (f : Nat → Nat) (name : Str) (includes : Option (List Int)) : Nat :=
  2 + if name = c!"include" ∧ includes ≠ none then ((includes.getD []).map (idxWork n f)).sum else 0

/-- The items that the goroutine of a block sends at most. -/
def listItems (n : Nat) (f : Nat → Nat) (ds : List Directive) : Nat := (ds.map fun d => emitItems n f d.directive d.includes).sum

mutual
/-- The steps for a directive, at most. -/
def dirWork (n : Nat) (f : Nat → Nat) : Directive → Nat
  | ⟨dd, _, _, _, dincl, dblock, _, _⟩ => 1 + optWork n f dblock + emitWork n f dd dincl
def optWork (n : Nat) (f : Nat → Nat) : Option (List Directive) → Nat
  | none => 0
  | some b => listWork n f b + 1 + listItems n f b + 1
/-- The steps for the directives of a block, at most. -/
def listWork (n : Nat) (f : Nat → Nat) : List Directive → Nat
  | [] => 0
  | d :: ds => dirWork n f d + listWork n f ds
end

theorem dirWork_eq (n : Nat) (f : Nat → Nat) (d : Directive) : dirWork n f d = 1 + optWork n f d.block + emitWork n f d.directive d.includes := by
  cases d; rw [dirWork]

theorem listItems_cons (n : Nat) (f : Nat → Nat) (d : Directive) (ds : List Directive) : listItems n f (d :: ds) = emitItems n f d.directive d.includes + listItems n f ds := rfl

def GoSt.items (n : Nat) (f : Nat → Nat) (c : Nat) : GoSt → Nat
  | .next ds => listItems n f ds
  | .block d _ ds => emitItems n f d.directive d.includes + listItems n f ds
  | .emit d ds => emitItems n f d.directive d.includes + listItems n f ds
  | .incl _ idxs ds => (idxs.map (idxItems n f)).sum + listItems n f ds
  | .copy _ idxs ds => c + (idxs.map (idxItems n f)).sum + listItems n f ds
  | .send _ k => 1 + k.items n f c
  | .ret => 0

def GoSt.work (n : Nat) (f : Nat → Nat) (c : Nat) : GoSt → Nat
  | .next ds => listWork n f ds + 1
  | .block d _ ds => c + 1 + emitWork n f d.directive d.includes + listWork n f ds + 1
  | .emit d ds => emitWork n f d.directive d.includes + listWork n f ds + 1
  | .incl _ idxs ds => (idxs.map (idxWork n f)).sum + 1 + listWork n f ds + 1
  | .copy _ idxs ds => c + 1 + (idxs.map (idxWork n f)).sum + 1 + listWork n f ds + 1
  | .send _ k => k.work n f c
  | .ret => 0

theorem GoSt.items_mono {n : Nat} {f : Nat → Nat} {c c' : Nat} (h : c ≤ c') : ∀ st : GoSt, st.items n f c ≤ st.items n f c'
  | .next _ => Nat.le_refl _
  | .block _ _ _ => Nat.le_refl _
  | .emit _ _ => Nat.le_refl _
  | .incl _ _ _ => Nat.le_refl _
  | .copy _ _ _ => by simp only [GoSt.items]; omega
  | .send _ k => by simp only [GoSt.items]; have := GoSt.items_mono (n := n) (f := f) h k; omega
  | .ret => Nat.le_refl _

theorem GoSt.work_mono {n : Nat} {f : Nat → Nat} {c c' : Nat} (h : c ≤ c') : ∀ st : GoSt, st.work n f c ≤ st.work n f c'
  | .next _ => Nat.le_refl _
  | .block _ _ _ => by simp only [GoSt.work]; omega
  | .emit _ _ => Nat.le_refl _
  | .incl _ _ _ => Nat.le_refl _
  | .copy _ _ _ => by simp only [GoSt.work]; omega
  | .send _ k => by simp only [GoSt.work]; exact GoSt.work_mono (n := n) (f := f) h k
  | .ret => Nat.le_refl _

def chItems (n : Nat) (f : Nat → Nat) : List Gor → Nat
  | [] => 0
  | g :: rest => g.st.items n f (chItems n f rest)

def chWork (n : Nat) (f : Nat → Nat) : List Gor → Nat
  | [] => 0
  | g :: rest => g.st.work n f (chItems n f rest) + chWork n f rest

/-- `f` bounds what is done for every config. -/
def Bounds (cs : List Config) (f : Nat → Nat) : Prop :=
  ∀ i cfg, cs[i]? = some cfg → listItems cs.length f cfg.parsed ≤ f i ∧ listWork cs.length f cfg.parsed + 1 ≤ f i

theorem HeadAct.less {cs : List Config} {f : Nat → Nat} (hf : Bounds cs f) {ch ch' : List Gor} {o : List (List Gor)} (h : HeadAct cs ch ch' o) :
    chItems cs.length f ch' ≤ chItems cs.length f ch ∧ chWork cs.length f ch' + (o.map (chWork cs.length f)).sum < chWork cs.length f ch := by
  have hincl : ∀ d : Directive, d.isInclude = true ↔ d.directive = c!"include" ∧ d.includes ≠ none := by
    intro d
    cases hd : d.includes <;> simp [Directive.isInclude, hd]
  cases h with
  | done f => simp [chItems, chWork, GoSt.items, GoSt.work]
  | plain f d ds h =>
    simp only [chItems, chWork, GoSt.items, GoSt.work, listItems_cons, listWork, dirWork_eq, h, optWork, List.map_nil, List.sum_nil]
    omega
  | spawn f d ds b h =>
    simp only [chItems, chWork, GoSt.items, GoSt.work, listItems_cons, listWork, dirWork_eq, h, optWork, List.map_nil, List.sum_nil]
    omega
  | recv f d acc ds f' x k rest =>
    simp only [chItems, chWork, GoSt.items, GoSt.work, List.map_nil, List.sum_nil]
    omega
  | recvErr f d acc ds f' e k rest =>
    simp only [chItems, chWork, GoSt.items, GoSt.work, List.map_cons, List.map_nil, List.sum_cons, List.sum_nil, emitItems]
    omega
  | closed f d acc ds f' =>
    simp only [chItems, chWork, GoSt.items, GoSt.work, List.map_nil, List.sum_nil]
    omega
  | keep f d ds h =>
    simp only [chItems, chWork, GoSt.items, GoSt.work, List.map_nil, List.sum_nil, emitItems, emitWork]
    omega
  | incl f d ds h =>
    have h := (hincl d).1 h
    simp only [chItems, chWork, GoSt.items, GoSt.work, List.map_nil, List.sum_nil, emitItems, emitWork, if_pos h]
    omega
  | inclDone f d ds =>
    simp only [chItems, chWork, GoSt.items, GoSt.work, List.map_nil, List.sum_nil]
    omega
  | inclBad f d idx idxs ds h =>
    have hn : ¬ (0 ≤ idx ∧ idx < cs.length) := by omega
    simp only [chItems, chWork, GoSt.items, GoSt.work, List.map_cons, List.map_nil, List.sum_cons, List.sum_nil, idxItems, idxWork, if_neg hn]
    omega
  | inclOpen f d i idxs ds cfg h =>
    obtain ⟨h1, h2⟩ := hf i cfg h
    have hi := (List.getElem?_eq_some_iff.mp h).1
    have hp : (0 : Int) ≤ (i : Int) ∧ (i : Int) < cs.length := by omega
    simp only [chItems, chWork, GoSt.items, GoSt.work, List.map_cons, List.map_nil, List.sum_cons, List.sum_nil, idxItems, idxWork, if_pos hp, Int.toNat_natCast]
    omega
  | forward f d idxs ds f' x k rest =>
    simp only [chItems, chWork, GoSt.items, GoSt.work, List.map_nil, List.sum_nil]
    omega
  | inclNext f d idxs ds f' =>
    simp only [chItems, chWork, GoSt.items, GoSt.work, List.map_nil, List.sum_nil]
    omega

theorem Act.less {cs : List Config} {f : Nat → Nat} (hf : Bounds cs f) {ch ch' : List Gor} {o : List (List Gor)} (h : Act cs ch ch' o) :
    chItems cs.length f ch' ≤ chItems cs.length f ch ∧ chWork cs.length f ch' + (o.map (chWork cs.length f)).sum < chWork cs.length f ch := by
  induction h with
  | head h => exact h.less hf
  | deeper g rest rest' o hg h ih =>
    simp only [chItems, chWork]
    have h1 := GoSt.items_mono (n := cs.length) (f := f) ih.1 g.st
    have h2 := GoSt.work_mono (n := cs.length) (f := f) ih.1 g.st
    omega

/-- The steps that are left, at most. -/
def CombSt.left (n : Nat) (f : Nat → Nat) (s : CombSt) : Nat :=
  (match s.main with
  | .reading _ => chItems n f s.chain + chWork n f s.chain + 2
  | .returned _ => 1
  | .crashed => 0) + (s.orphans.map (chWork n f)).sum

theorem CombStep.less {cs : List Config} {f : Nat → Nat} (hf : Bounds cs f) {s s' : CombSt} (h : CombStep cs s s') : s'.left cs.length f < s.left cs.length f := by
  cases h with
  | recv acc g x k rest os => simp only [CombSt.left, chItems, chWork, GoSt.items, GoSt.work]; omega
  | recvErr acc g e k rest os =>
    simp only [CombSt.left, chItems, chWork, GoSt.items, GoSt.work, List.map_append, List.sum_append, List.map_cons, List.map_nil, List.sum_cons, List.sum_nil]; omega
  | closed acc g os => simp only [CombSt.left]; omega
  | act acc ch ch' o os h =>
    have := h.less hf
    simp only [CombSt.left, List.map_append, List.sum_append]; omega
  | orphan m chain os1 ch ch' o os2 hm h =>
    have := h.less hf
    simp only [CombSt.left, List.map_append, List.sum_append, List.map_cons, List.sum_cons]; omega
  | crash m chain os hm h =>
    cases m with
    | reading acc => simp only [CombSt.left]; omega
    | returned r => simp only [CombSt.left]; omega
    | crashed => exact absurd rfl hm

theorem CombRun.less {cs : List Config} {f : Nat → Nat} (hf : Bounds cs f) {k : Nat} {s s' : CombSt} (h : CombRun cs k s s') :
    k + s'.left cs.length f ≤ s.left cs.length f := by
  induction h with
  | refl => omega
  | tail _ hs ih => have := hs.less hf; omega

/-! ## The bound -/

/-- Config `i` includes config `j`. -/
def IncludesConfig (cs : List Config) (i j : Nat) : Prop := j < cs.length ∧ ∃ d, Names cs i d (j : Int)

/-- No config includes itself, directly or through others. -/
def Acyclic (cs : List Config) : Prop := ∀ i, ¬ Relation.TransGen (IncludesConfig cs) i i

theorem Acyclic.wf {cs : List Config} (h : Acyclic cs) : WellFounded fun j i => IncludesConfig cs i j := by
  let R : _root_.Fin cs.length → _root_.Fin cs.length → Prop := fun j i => Relation.TransGen (IncludesConfig cs) i.1 j.1
  have hwf : WellFounded R := by
    haveI : IsTrans _ R := ⟨fun a b c h1 h2 => Relation.TransGen.trans h2 h1⟩
    haveI : Std.Irrefl R := ⟨fun a h1 => h a.1 h1⟩
    exact Finite.wellFounded_of_trans_of_irrefl R
  have hacc : ∀ i : _root_.Fin cs.length, Acc (fun j i => IncludesConfig cs i j) i.1 := by
    intro i
    induction hwf.apply i with
    | intro i _ ih => exact ⟨_, fun j hj => ih ⟨j, hj.1⟩ (.single hj)⟩
  refine ⟨fun i => ?_⟩
  by_cases hi : i < cs.length
  · exact hacc ⟨i, hi⟩
  · refine ⟨_, fun j hj => ?_⟩
    obtain ⟨-, d, c, hc, -⟩ := hj
    exact absurd (List.getElem?_eq_some_iff.mp hc).1 hi

/-- `f` and `g` agree on the configs that `ds` names. -/
def AgreeOn (n : Nat) (f g : Nat → Nat) (ds : List Directive) : Prop :=
  ∀ d, Within d ds → IsInclude d → ∀ j : Nat, j < n → (j : Int) ∈ d.includes.getD [] → f j = g j

theorem idx_congr {n : Nat} {f g : Nat → Nat} {idxs : List Int} (h : ∀ j : Nat, j < n → (j : Int) ∈ idxs → f j = g j) :
    idxs.map (idxItems n f) = idxs.map (idxItems n g) ∧ idxs.map (idxWork n f) = idxs.map (idxWork n g) := by
  have key : ∀ idx ∈ idxs, 0 ≤ idx ∧ idx < n → f idx.toNat = g idx.toNat := by
    intro idx hm hr
    exact h _ (by omega) (by rw [Int.toNat_of_nonneg hr.1]; exact hm)
  constructor <;> refine List.map_congr_left fun idx hm => ?_
  · unfold idxItems
    split
    · exact key idx hm ‹_›
    · rfl
  · unfold idxWork
    split
    · rw [key idx hm ‹_›]
    · rfl

theorem emit_congr {n : Nat} {f g : Nat → Nat} {d : Directive} (h : IsInclude d → ∀ j : Nat, j < n → (j : Int) ∈ d.includes.getD [] → f j = g j) :
    emitItems n f d.directive d.includes = emitItems n g d.directive d.includes ∧ emitWork n f d.directive d.includes = emitWork n g d.directive d.includes := by
  unfold emitItems emitWork
  by_cases hi : d.directive = c!"include" ∧ d.includes ≠ none
  · obtain ⟨h1, h2⟩ := idx_congr (h hi)
    rw [if_pos hi, if_pos hi, if_pos hi, if_pos hi, h1, h2]
    exact ⟨rfl, rfl⟩
  · rw [if_neg hi, if_neg hi, if_neg hi, if_neg hi]
    exact ⟨rfl, rfl⟩

theorem listItems_congr {n : Nat} {f g : Nat → Nat} {ds : List Directive} (h : AgreeOn n f g ds) : listItems n f ds = listItems n g ds := by
  unfold listItems
  congr 1
  exact List.map_congr_left fun d hd => (emit_congr (h d (.here hd))).1

theorem listWork_congr {n : Nat} {f g : Nat → Nat} (ds : List Directive) : AgreeOn n f g ds → listWork n f ds = listWork n g ds := by
  induction ds using listInd with
  | h0 => intro _; rfl
  | h1 d ds hb ih =>
    intro h
    rw [listWork, listWork, dirWork_eq, dirWork_eq, (emit_congr (h d (.here (by simp)))).2,
      ih fun x hx => h x (by
        cases hx with
        | here hm => exact .here (List.mem_cons_of_mem _ hm)
        | deep hm h1 h2 => exact .deep (List.mem_cons_of_mem _ hm) h1 h2)]
    congr 3
    cases hd : d.block with
    | none => rfl
    | some b =>
      have ha : AgreeOn n f g b := fun x hx => h x (.deep (by simp) hd hx)
      rw [optWork, optWork, hb b hd ha, listItems_congr ha]

theorem Acyclic.bounds {cs : List Config} (h : Acyclic cs) : ∃ f, Bounds cs f := by
  classical
  let F : (i : Nat) → ((j : Nat) → IncludesConfig cs i j → Nat) → Nat := fun i rec =>
    match cs[i]? with
    | some cfg =>
      listItems cs.length (fun j => if hj : IncludesConfig cs i j then rec j hj else 0) cfg.parsed +
        listWork cs.length (fun j => if hj : IncludesConfig cs i j then rec j hj else 0) cfg.parsed + 1
    | none => 0
  refine ⟨h.wf.fix F, fun i cfg hi => ?_⟩
  rw [h.wf.fix_eq F i]
  have ha : AgreeOn cs.length (h.wf.fix F) (fun j => if _ : IncludesConfig cs i j then h.wf.fix F j else 0) cfg.parsed := by
    intro d hd hinc j hj hm
    have : IncludesConfig cs i j := ⟨hj, d, cfg, hi, hd, hinc, hm⟩
    simp only [this, dite_true]
  rw [listItems_congr ha, listWork_congr _ ha]
  simp only [F, hi]
  omega

/-- **C64**.  If no config includes itself, directly or through others, there is a bound on the number of steps of all schedules, whatever becomes of them. -/
theorem C64_bounded {cs : List Config} (h : Acyclic cs) (c0 : Config) : ∃ K, ∀ {k : Nat} {s : CombSt}, CombRun cs k (.init c0) s → k ≤ K := by
  obtain ⟨f, hf⟩ := h.bounds
  exact ⟨(CombSt.init c0).left cs.length f, fun hr => by have := hr.less hf; omega⟩

/-- **C64**.  So if no config includes itself, every schedule that goes on as long as it can comes to an end, where `Combined` has returned the result of the sequential model, or
the program has crashed. -/
theorem C64_ends {p : Payload} {c0 : Config} {rest : List Config} (h : p.config = c0 :: rest) {k : Nat} {s : CombSt}
    (hr : CombRun p.config k (.init c0) s) (hend : ∀ s', ¬ CombStep p.config s s') :
    s.main = .crashed ∨ ∃ r fuel, s.main = .returned r ∧ combined fuel p = resultOf p c0 r := by
  cases hm : s.main with
  | reading acc =>
    obtain ⟨s', hs⟩ := C64_no_deadlock hr hm
    exact absurd hs (hend s')
  | returned r =>
    obtain ⟨fuel, hf⟩ := C64_returns h hr hm
    exact .inr ⟨r, fuel, rfl, hf⟩
  | crashed => exact .inl rfl

/-! ## Without negative indices nothing crashes -/

/-- No include directive has a negative index. -/
def NoNegative (ds : List Directive) : Prop := ∀ d, Within d ds → ∀ idx ∈ d.includes.getD [], 0 ≤ idx

theorem NoNegative.tail {d : Directive} {ds : List Directive} (h : NoNegative (d :: ds)) : NoNegative ds := fun x hx => h x (by
  cases hx with
  | here hm => exact .here (List.mem_cons_of_mem _ hm)
  | deep hm h1 h2 => exact .deep (List.mem_cons_of_mem _ hm) h1 h2)

def GoSt.NoNeg : GoSt → Prop
  | .next ds => NoNegative ds
  | .block d _ ds => (∀ idx ∈ d.includes.getD [], 0 ≤ idx) ∧ NoNegative ds
  | .emit d ds => (∀ idx ∈ d.includes.getD [], 0 ≤ idx) ∧ NoNegative ds
  | .incl _ idxs ds => (∀ idx ∈ idxs, 0 ≤ idx) ∧ NoNegative ds
  | .copy _ idxs ds => (∀ idx ∈ idxs, 0 ≤ idx) ∧ NoNegative ds
  | .send _ k => k.NoNeg
  | .ret => True

def ChNoNeg (ch : List Gor) : Prop := ∀ g ∈ ch, g.st.NoNeg

theorem HeadAct.noNeg {cs : List Config} (hcs : ∀ cfg ∈ cs, NoNegative cfg.parsed) {ch ch' : List Gor} {o : List (List Gor)} (h : HeadAct cs ch ch' o) (hc : ChNoNeg ch) :
    ChNoNeg ch' ∧ ∀ x ∈ o, ChNoNeg x := by
  unfold ChNoNeg at *
  cases h with
  | done f => simp [GoSt.NoNeg]
  | plain f d ds h =>
    have := hc _ (List.mem_cons_self ..)
    simp only [List.mem_cons, List.not_mem_nil, or_false, forall_eq, GoSt.NoNeg, false_implies, implies_true, and_true] at this ⊢
    exact ⟨this d (.here (by simp)), this.tail⟩
  | spawn f d ds b h =>
    have := hc _ (List.mem_cons_self ..)
    simp only [List.mem_cons, List.not_mem_nil, or_false, forall_eq_or_imp, forall_eq, GoSt.NoNeg, false_implies, implies_true, and_true] at this ⊢
    exact ⟨⟨this d (.here (by simp)), this.tail⟩, fun x hx => this x (.deep (by simp) h hx)⟩
  | recv f d acc ds f' x k rest => simpa [GoSt.NoNeg] using hc
  | recvErr f d acc ds f' e k rest =>
    simp only [List.mem_cons, forall_eq_or_imp, GoSt.NoNeg] at hc
    simp only [List.mem_cons, List.not_mem_nil, or_false, forall_eq, forall_eq_or_imp, GoSt.NoNeg, true_and]
    exact hc.2
  | closed f d acc ds f' => simpa [GoSt.NoNeg] using hc
  | keep f d ds h =>
    simp only [List.mem_cons, List.not_mem_nil, or_false, forall_eq, GoSt.NoNeg] at hc
    simpa [GoSt.NoNeg] using hc.2
  | incl f d ds h => simpa [GoSt.NoNeg] using hc
  | inclDone f d ds => simpa [GoSt.NoNeg] using hc
  | inclBad f d idx idxs ds h => simp [GoSt.NoNeg]
  | inclOpen f d i idxs ds cfg h =>
    simp only [List.mem_cons, List.not_mem_nil, or_false, forall_eq, forall_eq_or_imp, GoSt.NoNeg, false_implies, implies_true, and_true] at hc ⊢
    exact ⟨⟨hc.1.2, hc.2⟩, hcs cfg (List.mem_of_getElem? h)⟩
  | forward f d idxs ds f' x k rest => simpa [GoSt.NoNeg] using hc
  | inclNext f d idxs ds f' => simpa [GoSt.NoNeg] using hc

theorem Act.noNeg {cs : List Config} (hcs : ∀ cfg ∈ cs, NoNegative cfg.parsed) {ch ch' : List Gor} {o : List (List Gor)} (h : Act cs ch ch' o) :
    ChNoNeg ch → ChNoNeg ch' ∧ ∀ x ∈ o, ChNoNeg x := by
  induction h with
  | head h => exact h.noNeg hcs
  | deeper g rest rest' o hg h ih =>
    intro hc
    obtain ⟨h1, h2⟩ := ih fun x hx => hc x (List.mem_cons_of_mem _ hx)
    refine ⟨fun x hx => ?_, h2⟩
    rcases List.mem_cons.mp hx with rfl | hx
    · exact hc _ (by simp)
    · exact h1 x hx

theorem Crashes.neg {ch : List Gor} (h : Crashes ch) : ¬ ChNoNeg ch := by
  induction h with
  | here f d idx idxs ds h =>
    intro hc
    have := (hc _ (List.mem_cons_self ..)).1 idx (by simp)
    omega
  | deeper g rest hg h ih => exact fun hc => ih fun x hx => hc x (List.mem_cons_of_mem _ hx)

theorem CombStep.noNeg {cs : List Config} (hcs : ∀ cfg ∈ cs, NoNegative cfg.parsed) {s s' : CombSt} (h : CombStep cs s s')
    (hc : s.main ≠ .crashed ∧ ChNoNeg s.chain ∧ ∀ x ∈ s.orphans, ChNoNeg x) : s'.main ≠ .crashed ∧ ChNoNeg s'.chain ∧ ∀ x ∈ s'.orphans, ChNoNeg x := by
  obtain ⟨hm, hch, hos⟩ := hc
  cases h with
  | recv acc g x k rest os => exact ⟨by simp, by simpa [ChNoNeg, GoSt.NoNeg] using hch, hos⟩
  | recvErr acc g e k rest os =>
    refine ⟨by simp, by simp [ChNoNeg], fun x hx => ?_⟩
    rcases List.mem_append.mp hx with hx | hx
    · exact hos x hx
    · rw [List.mem_singleton.mp hx]
      simpa [ChNoNeg, GoSt.NoNeg] using hch
  | closed acc g os => exact ⟨by simp, by simp [ChNoNeg], hos⟩
  | act acc ch ch' o os h =>
    obtain ⟨h1, h2⟩ := h.noNeg hcs hch
    refine ⟨by simp, h1, fun x hx => ?_⟩
    rcases List.mem_append.mp hx with hx | hx
    · exact hos x hx
    · exact h2 x hx
  | orphan m chain os1 ch ch' o os2 hm' h =>
    obtain ⟨h1, h2⟩ := h.noNeg hcs (hos ch (by simp))
    refine ⟨hm, hch, fun x hx => ?_⟩
    simp only [List.mem_append, List.mem_cons] at hx
    rcases hx with (hx | rfl | hx) | hx
    · exact hos x (by simp [hx])
    · exact h1
    · exact hos x (by simp [hx])
    · exact h2 x hx
  | crash m chain os hm' h =>
    rcases h with h | ⟨ch, hmem, h⟩
    · exact absurd hch h.neg
    · exact absurd (hos ch hmem) h.neg

/-- **C64**.  Without negative indices no schedule crashes. -/
theorem C64_no_crash {cs : List Config} (hcs : ∀ cfg ∈ cs, NoNegative cfg.parsed) {c0 : Config} (h0 : c0 ∈ cs) {k : Nat} {s : CombSt}
    (hr : CombRun cs k (.init c0) s) : s.main ≠ .crashed := by
  suffices h : s.main ≠ .crashed ∧ ChNoNeg s.chain ∧ ∀ x ∈ s.orphans, ChNoNeg x from h.1
  generalize hs0 : CombSt.init c0 = s0 at hr
  induction hr with
  | refl =>
    subst hs0
    refine ⟨by simp [CombSt.init], ?_, by simp [CombSt.init]⟩
    simpa [CombSt.init, ChNoNeg, GoSt.NoNeg] using hcs c0 h0
  | tail _ hs ih => exact hs.noNeg hcs (ih hs0)

/-- **C64**.  A payload without circles and without negative indices: every schedule that goes on as long as it can comes to an end, within a number of steps that depends only on
the payload, and there `Combined` has returned what the sequential model returns. -/
theorem C64_total {p : Payload} {c0 : Config} {rest : List Config} (h : p.config = c0 :: rest) (hcyc : Acyclic p.config)
    (hneg : ∀ cfg ∈ p.config, NoNegative cfg.parsed) :
    ∃ K, ∀ {k : Nat} {s : CombSt}, CombRun p.config k (.init c0) s →
      k ≤ K ∧ ((∀ s', ¬ CombStep p.config s s') → ∃ r fuel, s.main = .returned r ∧ combined fuel p = resultOf p c0 r) := by
  obtain ⟨K, hK⟩ := C64_bounded hcyc c0
  refine ⟨K, fun hr => ⟨hK hr, fun hend => ?_⟩⟩
  rcases C64_ends h hr hend with hc | hres
  · exact absurd hc (C64_no_crash hneg (by rw [h]; simp) hr)
  · exact hres

/-! ## Examples -/

private theorem exAcyclic : Acyclic (exPay [[exHttp [exInc [1]], exInc [9]], [exPlain, exInc [7]]]).config := by
  have h0 : ∀ i j, IncludesConfig (exPay [[exHttp [exInc [1]], exInc [9]], [exPlain, exInc [7]]]).config i j → i = 0 ∧ j = 1 := by
    rintro i j ⟨hj, d, c, hc, hw, hi, hm⟩
    have hj : j < 2 := hj
    have hi2 : i < 2 := (List.getElem?_eq_some_iff.mp hc).1
    have hcase : i = 0 ∨ i = 1 := by omega
    rcases hcase with rfl | rfl
    · have hc : ({ file := c!"f", parsed := [exHttp [exInc [1]], exInc [9]] } : Config) = c := Option.some.inj hc
      subst hc
      cases hw with
      | here hmem =>
        simp only [List.mem_cons, List.not_mem_nil, or_false] at hmem
        rcases hmem with rfl | rfl
        · exact absurd hi.1 (by decide)
        · have : (j : Int) = 9 := by simpa [exInc] using hm
          omega
      | deep hmem hb hw =>
        simp only [List.mem_cons, List.not_mem_nil, or_false] at hmem
        rcases hmem with rfl | rfl
        · have hb := Option.some.inj hb
          subst hb
          cases hw with
          | here hmem =>
            have := List.mem_singleton.mp hmem
            subst this
            have : (j : Int) = 1 := by simpa [exInc] using hm
            omega
          | deep hmem hb hw =>
            have := List.mem_singleton.mp hmem
            subst this
            exact absurd hb (by simp [exInc])
        · exact absurd hb (by simp [exInc])
    · have hc : ({ file := c!"f", parsed := [exPlain, exInc [7]] } : Config) = c := Option.some.inj hc
      subst hc
      cases hw with
      | here hmem =>
        simp only [List.mem_cons, List.not_mem_nil, or_false] at hmem
        rcases hmem with rfl | rfl
        · exact absurd hi.1 (by decide)
        · have : (j : Int) = 7 := by simpa [exInc] using hm
          omega
      | deep hmem hb hw =>
        simp only [List.mem_cons, List.not_mem_nil, or_false] at hmem
        rcases hmem with rfl | rfl
        · exact absurd hb (by simp [exPlain])
        · exact absurd hb (by simp [exInc])
  have h1 : ∀ i j, Relation.TransGen (IncludesConfig (exPay [[exHttp [exInc [1]], exInc [9]], [exPlain, exInc [7]]]).config) i j → i = 0 ∧ j = 1 := by
    intro i j h
    induction h with
    | single h => exact h0 _ _ h
    | tail _ h ih => exact ⟨ih.1, (h0 _ _ h).2⟩
  intro i h
  have := h1 i i h
  omega

/-- `http { include 1; } include 9;` with `plain; include 7;` as second config: the error of the second config is returned, goroutines are left behind, and every schedule ends. -/
example : ∃ K, ∀ {k : Nat} {s : CombSt},
    CombRun (exPay [[exHttp [exInc [1]], exInc [9]], [exPlain, exInc [7]]]).config k (.init { file := c!"f", parsed := [exHttp [exInc [1]], exInc [9]] }) s → k ≤ K :=
  C64_bounded exAcyclic _

end Verif
