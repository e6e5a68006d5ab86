import Verif.Props.GoroutinesEnd
import Verif.Spec.Sends
/-!
# C65: exactly which payloads leave goroutines of `Combined` behind
-/
namespace Verif
open Spec

/-! ## What a chain of goroutines will send -/

/-- With the block of `d` done. -/
def SendsAfter (cs : List Config) (d : Directive) (ds : List Directive) (m : List Sent) : Prop :=
  (IsInclude d ∧ Sends cs (d.includes.getD []) ds m) ∨ (¬ IsInclude d ∧ ∃ m', Sends cs [] ds m' ∧ m = .dir :: m')

/-- What a goroutine will send, if the one it reads from will send `a`. -/
def SendsG (cs : List Config) (a : List Sent) : GoSt → List Sent → Prop
  | .next ds, m => Sends cs [] ds m
  | .emit d ds, m => SendsAfter cs d ds m
  | .block d _ ds, m => (hasError a = true ∧ m = [.err (leavesBehind a)]) ∨ (hasError a = false ∧ SendsAfter cs d ds m)
  | .incl _ is ds, m => Sends cs is ds m
  | .copy _ is ds, m => ∃ m', Sends cs is ds m' ∧ m = a ++ m'
  | .send (.dir _) k, m => ∃ m', SendsG cs a k m' ∧ m = .dir :: m'
  | .send (.err _) k, m => ∃ m', SendsG cs a k m' ∧ m = .err false :: m'
  | .ret, m => m = []

/-- What the first goroutine of a chain will send. -/
def SendsC (cs : List Config) : List Gor → List Sent → Prop
  | [], m => m = []
  | g :: rest, m => ∃ a, SendsC cs rest a ∧ SendsG cs a g.st m

/-- The same, except that one error no longer stands for a goroutine that is left behind (`l`: with something to send). -/
inductive Absorbs (l : Bool) : List Sent → List Sent → Prop
  | here (b m) : Absorbs l (.err (b || l) :: m) (.err b :: m)
  | there (x) {m m'} : Absorbs l m m' → Absorbs l (x :: m) (x :: m')

theorem Absorbs.append {l : Bool} {a a' : List Sent} (h : Absorbs l a a') (m : List Sent) : Absorbs l (a ++ m) (a' ++ m) := by
  induction h with
  | here b r => exact .here b _
  | there x _ ih => exact .there x ih

theorem Absorbs.error {l : Bool} {a a' : List Sent} (h : Absorbs l a a') : hasError a = true ∧ hasError a' = true := by
  induction h with
  | here b r => exact ⟨rfl, rfl⟩
  | there x _ ih => cases x <;> simp [hasError, ih]

theorem Absorbs.ne_nil {l : Bool} {a a' : List Sent} (h : Absorbs l a a') : a ≠ [] ∧ a' ≠ [] := by cases h <;> simp

theorem Absorbs.leaves {l : Bool} {a a' : List Sent} (h : Absorbs l a a') : leavesBehind a = (leavesBehind a' || l) := by
  induction h with
  | here b r => simp only [leavesBehind]; cases b <;> cases l <;> cases r <;> rfl
  | there x hs ih =>
    cases x with
    | dir => simpa [leavesBehind] using ih
    | err b =>
      cases hs <;> simp [leavesBehind]

theorem SendsG.settles {cs : List Config} {l : Bool} {a a' : List Sent} (hs : Absorbs l a a') : ∀ {st : GoSt} {m : List Sent}, st.reads = true → SendsG cs a st m →
    ∃ m', SendsG cs a' st m' ∧ Absorbs l m m'
  | .block d acc ds, m, _, h => by
    rcases h with ⟨-, rfl⟩ | ⟨h, -⟩
    · refine ⟨_, Or.inl ⟨hs.error.2, rfl⟩, ?_⟩
      rw [hs.leaves]
      exact .here _ _
    · rw [hs.error.1] at h; cases h
  | .copy d is ds, m, _, h => by
    obtain ⟨m', h1, rfl⟩ := h
    exact ⟨_, ⟨m', h1, rfl⟩, hs.append m'⟩
  | .send (.dir x) k, m, hr, h => by
    obtain ⟨m', h1, rfl⟩ := h
    obtain ⟨m2, h2, h3⟩ := SendsG.settles hs (st := k) hr h1
    exact ⟨_, ⟨m2, h2, rfl⟩, .there _ h3⟩
  | .send (.err e) k, m, hr, h => by
    obtain ⟨m', h1, rfl⟩ := h
    obtain ⟨m2, h2, h3⟩ := SendsG.settles hs (st := k) hr h1
    exact ⟨_, ⟨m2, h2, rfl⟩, .there _ h3⟩

/-- A step changes nothing, or it leaves one chain behind that was accounted for. -/
def Changes (cs : List Config) (o : List (List Gor)) (m m' : List Sent) : Prop :=
  (o = [] ∧ m' = m) ∨ ∃ c r, o = [c] ∧ SendsC cs c r ∧ Absorbs (!r.isEmpty) m m'

theorem sends_block_none {cs : List Config} {d : Directive} {ds : List Directive} {m : List Sent} (hb : d.block = none) (h : Sends cs [] (d :: ds) m) : SendsAfter cs d ds m := by
  cases h with
  | plain _ h1 h2 => exact Or.inr ⟨h1, _, h2, rfl⟩
  | incl _ h1 h2 => exact Or.inl ⟨h1, h2⟩
  | blockError h1 => rw [hb] at h1; cases h1
  | block h1 => rw [hb] at h1; cases h1
  | blockIncl h1 => rw [hb] at h1; cases h1

theorem sends_block_some {cs : List Config} {d : Directive} {ds b : List Directive} {m : List Sent} (hb : d.block = some b) (h : Sends cs [] (d :: ds) m) :
    ∃ a, Sends cs [] b a ∧ ((hasError a = true ∧ m = [.err (leavesBehind a)]) ∨ (hasError a = false ∧ SendsAfter cs d ds m)) := by
  cases h with
  | plain h1 => rw [hb] at h1; cases h1
  | incl h1 => rw [hb] at h1; cases h1
  | blockError h1 h2 h3 => rw [hb] at h1; cases h1; exact ⟨_, h2, Or.inl ⟨h3, rfl⟩⟩
  | block h1 h2 h3 h4 h5 => rw [hb] at h1; cases h1; exact ⟨_, h2, Or.inr ⟨h3, Or.inr ⟨h4, _, h5, rfl⟩⟩⟩
  | blockIncl h1 h2 h3 h4 h5 => rw [hb] at h1; cases h1; exact ⟨_, h2, Or.inr ⟨h3, Or.inl ⟨h4, h5⟩⟩⟩

theorem HeadAct.sends {cs : List Config} {ch ch' : List Gor} {o : List (List Gor)} (h : HeadAct cs ch ch' o) {m : List Sent} (hm : SendsC cs ch m) :
    ∃ m', SendsC cs ch' m' ∧ Changes cs o m m' := by
  have same : ∀ {m : List Sent}, Changes cs [] m m := fun {m} => Or.inl ⟨rfl, rfl⟩
  cases h with
  | done f =>
    obtain ⟨a, rfl, h1⟩ := hm
    cases h1
    exact ⟨[], ⟨[], rfl, rfl⟩, same⟩
  | plain f d ds h =>
    obtain ⟨a, rfl, h1⟩ := hm
    exact ⟨m, ⟨[], rfl, sends_block_none h h1⟩, same⟩
  | spawn f d ds b h =>
    obtain ⟨a, rfl, h1⟩ := hm
    obtain ⟨a, h2, h3⟩ := sends_block_some h h1
    exact ⟨m, ⟨a, ⟨[], rfl, h2⟩, h3⟩, same⟩
  | recv f d acc ds f' x k rest =>
    obtain ⟨a, ⟨a', h1, a2, h2, rfl⟩, h3⟩ := hm
    exact ⟨m, ⟨a2, ⟨a', h1, h2⟩, h3⟩, same⟩
  | recvErr f d acc ds f' e k rest =>
    obtain ⟨a, ⟨a', h1, a2, h2, rfl⟩, h3⟩ := hm
    rcases h3 with ⟨-, rfl⟩ | ⟨h3, -⟩
    · exact ⟨[.err false], ⟨[], rfl, [], rfl, rfl⟩, Or.inr ⟨_, a2, rfl, ⟨a', h1, h2⟩, .here false []⟩⟩
    · cases h3
  | closed f d acc ds f' =>
    obtain ⟨a, ⟨a', -, rfl⟩, h3⟩ := hm
    rcases h3 with ⟨h3, -⟩ | ⟨-, h3⟩
    · cases h3
    · exact ⟨m, ⟨[], rfl, h3⟩, same⟩
  | keep f d ds h =>
    obtain ⟨a, rfl, h1⟩ := hm
    rcases h1 with ⟨h1, -⟩ | ⟨-, m', h1, rfl⟩
    · rw [(isInclude_iff d).mpr h1] at h; cases h
    · exact ⟨_, ⟨[], rfl, m', h1, rfl⟩, same⟩
  | incl f d ds h =>
    obtain ⟨a, rfl, h1⟩ := hm
    rcases h1 with ⟨-, h1⟩ | ⟨h1, -⟩
    · exact ⟨_, ⟨[], rfl, h1⟩, same⟩
    · exact absurd ((isInclude_iff d).mp h) h1
  | inclDone f d ds => exact ⟨m, hm, same⟩
  | inclBad f d idx idxs ds h =>
    obtain ⟨a, rfl, h1⟩ := hm
    cases h1 with
    | missing h2 => exact ⟨_, ⟨[], rfl, [], rfl, rfl⟩, same⟩
    | config h2 =>
      have := (List.getElem?_eq_some_iff.mp h2).1
      omega
  | inclOpen f d i idxs ds cfg h =>
    obtain ⟨a, rfl, h1⟩ := hm
    generalize hi : (i : Int) = i' at h1
    cases h1 with
    | missing h2 =>
      have := (List.getElem?_eq_some_iff.mp h).1
      omega
    | @config j _ _ c m1 m2 h2 h3 h4 =>
      have : i = j := by omega
      subst this
      rw [h] at h2; cases h2
      exact ⟨_, ⟨m1, ⟨[], rfl, h3⟩, m2, h4, rfl⟩, same⟩
  | forward f d idxs ds f' x k rest =>
    obtain ⟨a, ⟨a', h1, h2⟩, m', h3, rfl⟩ := hm
    cases x with
    | dir x =>
      obtain ⟨a2, h2, rfl⟩ := h2
      exact ⟨_, ⟨a2, ⟨a', h1, h2⟩, _, ⟨m', h3, rfl⟩, rfl⟩, same⟩
    | err e =>
      obtain ⟨a2, h2, rfl⟩ := h2
      exact ⟨_, ⟨a2, ⟨a', h1, h2⟩, _, ⟨m', h3, rfl⟩, rfl⟩, same⟩
  | inclNext f d idxs ds f' =>
    obtain ⟨a, ⟨a', -, rfl⟩, m', h3, rfl⟩ := hm
    exact ⟨_, ⟨[], rfl, h3⟩, same⟩

theorem Act.sends {cs : List Config} {ch ch' : List Gor} {o : List (List Gor)} (h : Act cs ch ch' o) : ∀ {m : List Sent}, SendsC cs ch m →
    ∃ m', SendsC cs ch' m' ∧ Changes cs o m m' := by
  induction h with
  | head h => exact fun hm => h.sends hm
  | deeper g rest rest' o hg h ih =>
    rintro m ⟨a, h1, h2⟩
    obtain ⟨a', h3, ⟨rfl, rfl⟩ | ⟨c, r, rfl, h4, h5⟩⟩ := ih h1
    · exact ⟨m, ⟨_, h3, h2⟩, Or.inl ⟨rfl, rfl⟩⟩
    · obtain ⟨m', h6, h7⟩ := SendsG.settles h5 hg h2
      exact ⟨m', ⟨a', h3, h6⟩, Or.inr ⟨c, r, rfl, h4, h7⟩⟩

theorem Crashes.not_sends {cs : List Config} {ch : List Gor} (h : Crashes ch) : ∀ m, ¬ SendsC cs ch m := by
  induction h with
  | here f d idx idxs ds hi =>
    rintro m ⟨a, -, h1⟩
    cases h1 with
    | missing h2 => omega
    | config h2 => omega
  | deeper g rest hg h ih =>
    rintro m ⟨a, h1, -⟩
    exact ih a h1

theorem Act.orphans_ok {cs : List Config} {ch ch' : List Gor} {o : List (List Gor)} (h : Act cs ch ch' o) : ChainOk ch → ∀ c ∈ o, ChainOk c := by
  induction h with
  | head h =>
    intro hc c hm
    cases h with
    | recvErr f d acc ds f' e k rest =>
      rw [List.mem_singleton.mp hm]
      cases hc with
      | cons _ _ _ hr => exact hr.step
    | _ => cases hm
  | deeper g rest rest' o hg h ih =>
    intro hc
    cases hc with
    | last _ hl => rw [hg] at hl; cases hl
    | cons _ _ _ hr => exact ih hr

/-! ## What is left behind in the end -/

/-- What `combineConfigs` will leave behind. -/
def MainLeaves (cs : List Config) (s : CombSt) (l : Bool) : Prop :=
  match s.main with
  | .reading _ => ∃ m, SendsC cs s.chain m ∧ l = leavesBehind m
  | .returned _ => l = false
  | .crashed => False

/-- `l`: something is left behind, now or later. -/
def Leaves (cs : List Config) (s : CombSt) (l : Bool) : Prop :=
  ∃ (lm : Bool) (ps : List (List Gor × List Sent)), MainLeaves cs s lm ∧ s.orphans = ps.map (·.1) ∧ (∀ x ∈ ps, SendsC cs x.1 x.2 ∧ ChainOk x.1) ∧
    l = (lm || ps.any fun x => !x.2.isEmpty)

theorem CombStep.leaves {cs : List Config} {s s' : CombSt} (h : CombStep cs s s') (hok : StOk s) {l : Bool} (hl : Leaves cs s l) : Leaves cs s' l := by
  obtain ⟨lm, ps, h1, h2, h3, rfl⟩ := hl
  cases h with
  | recv acc f x k rest os =>
    obtain ⟨m, ⟨a, h4, m', h5, rfl⟩, rfl⟩ := h1
    exact ⟨_, ps, ⟨m', ⟨a, h4, h5⟩, rfl⟩, h2, h3, rfl⟩
  | recvErr acc f e k rest os =>
    obtain ⟨m, ⟨a, h4, m', h5, rfl⟩, rfl⟩ := h1
    refine ⟨false, ps ++ [(⟨f, k⟩ :: rest, m')], rfl, ?_, ?_, ?_⟩
    · simp only at h2 ⊢; rw [h2]; simp
    · intro x hx
      rcases List.mem_append.mp hx with hx | hx
      · exact h3 x hx
      · rw [List.mem_singleton.mp hx]
        exact ⟨⟨a, h4, h5⟩, ChainOk.step hok⟩
    · simp [leavesBehind, Bool.or_comm]
  | closed acc f os =>
    obtain ⟨m, ⟨a, -, rfl⟩, rfl⟩ := h1
    exact ⟨false, ps, rfl, h2, h3, rfl⟩
  | act acc ch ch' o os h =>
    obtain ⟨m, h4, rfl⟩ := h1
    obtain ⟨m', h5, ⟨rfl, rfl⟩ | ⟨c, r, rfl, h6, h7⟩⟩ := h.sends h4
    · exact ⟨_, ps, ⟨_, h5, rfl⟩, by simpa using h2, h3, rfl⟩
    · refine ⟨_, ps ++ [(c, r)], ⟨m', h5, rfl⟩, ?_, ?_, ?_⟩
      · simp only at h2 ⊢; rw [h2]; simp
      · intro x hx
        rcases List.mem_append.mp hx with hx | hx
        · exact h3 x hx
        · rw [List.mem_singleton.mp hx]
          exact ⟨h6, h.orphans_ok hok c (by simp)⟩
      · rw [h7.leaves]; simp [Bool.or_assoc, Bool.or_comm, Bool.or_left_comm]
  | orphan m chain os1 ch ch' o os2 hm h =>
    simp only at h2
    obtain ⟨p1, p2, rfl, h4, h5⟩ := List.append_eq_map_iff.mp h2
    cases p2 with
    | nil => cases h5
    | cons x p2 =>
      simp only [List.map_cons, List.cons.injEq] at h5
      obtain ⟨h5, h6⟩ := h5
      obtain ⟨c, r⟩ := x
      simp only at h5
      subst h5
      obtain ⟨h7, h8⟩ := h3 (c, r) (by simp)
      have hrest : ∀ x ∈ p1 ++ p2, SendsC cs x.1 x.2 ∧ ChainOk x.1 := fun x hx => h3 x (by
        rcases List.mem_append.mp hx with hx | hx <;> simp [hx])
      obtain ⟨m', g1, ⟨rfl, rfl⟩ | ⟨c2, r2, rfl, g2, g3⟩⟩ := h.sends h7
      · refine ⟨lm, p1 ++ (ch', m') :: p2, h1, ?_, ?_, by simp⟩
        · simp [h4, h6]
        · intro x hx
          simp only [List.mem_append, List.mem_cons] at hx
          rcases hx with hx | rfl | hx
          · exact hrest x (by simp [hx])
          · exact ⟨g1, h.ok h8⟩
          · exact hrest x (by simp [hx])
      · refine ⟨lm, p1 ++ (ch', m') :: p2 ++ [(c2, r2)], h1, ?_, ?_, ?_⟩
        · simp [h4, h6]
        · intro x hx
          simp only [List.mem_append, List.mem_cons, List.not_mem_nil, or_false] at hx
          rcases hx with (hx | rfl | hx) | rfl
          · exact hrest x (by simp [hx])
          · exact ⟨g1, h.ok h8⟩
          · exact hrest x (by simp [hx])
          · exact ⟨g2, h.orphans_ok h8 _ (by simp)⟩
        · obtain ⟨k1, k2⟩ := g3.ne_nil
          have e1 : (!r.isEmpty) = true := by simpa using k1
          have e2 : (!m'.isEmpty) = true := by simpa using k2
          simp only [List.any_append, List.any_cons, e1, e2, Bool.true_or, Bool.or_true]
  | crash m chain os hm h =>
    exfalso
    rcases h with h | ⟨c, hc, h⟩
    · cases m with
      | reading acc =>
        obtain ⟨m, h4, -⟩ := h1
        exact h.not_sends m h4
      | returned r =>
        have : chain = [] := hok
        subst this
        cases h
      | crashed => exact hm rfl
    · simp only at h2
      rw [h2] at hc
      obtain ⟨x, hx, rfl⟩ := List.mem_map.mp hc
      exact h.not_sends x.2 (h3 x hx).1

theorem CombRun.leaves {cs : List Config} {k : Nat} {s s' : CombSt} (h : CombRun cs k s s') (hok : StOk s) {l : Bool} (hl : Leaves cs s l) : Leaves cs s' l := by
  induction h with
  | refl => exact hl
  | tail hr hs ih => exact hs.leaves (hr.ok hok) (ih hok hl)

theorem init_leaves {cs : List Config} {c0 : Config} {m : List Sent} (h : Sends cs [] c0.parsed m) : Leaves cs (.init c0) (leavesBehind m) :=
  ⟨leavesBehind m, [], ⟨m, ⟨[], rfl, h⟩, rfl⟩, rfl, by simp, by simp⟩

/-- At the end exactly the goroutines with something to send are left. -/
theorem Leaves.final {cs : List Config} {s : CombSt} {l : Bool} (hl : Leaves cs s l) {r : Except GoErr (List Directive)} (hr : s.main = .returned r)
    (hend : ∀ s', ¬ CombStep cs s s') : Leaks cs s ↔ l = true := by
  obtain ⟨lm, ps, h1, h2, h3, rfl⟩ := hl
  obtain ⟨main, chain, orphans⟩ := s
  simp only at hr h2
  subst hr h2
  have hlm : lm = false := h1
  subst hlm
  have key : ∀ x ∈ ps, (x.2 ≠ [] ∧ ∃ g ∈ x.1, g.st ≠ .ret) ∨ (x.2 = [] ∧ ∀ g ∈ x.1, g.st = .ret) := by
    intro x hx
    obtain ⟨h4, h5⟩ := h3 x hx
    rcases h5.progress (cs := cs) 0 with ⟨ch', o, h6, -⟩ | ⟨h6, -⟩ | ⟨f, y, k, rest, h6⟩ | ⟨f, h6⟩
    · exfalso
      obtain ⟨p1, p2, rfl⟩ := List.append_of_mem hx
      rw [List.map_append, List.map_cons] at hend
      exact hend _ (.orphan _ _ _ _ _ _ _ (by simp) h6)
    · exact absurd h4 (h6.not_sends _)
    · refine Or.inl ⟨?_, by rw [h6]; exact ⟨_, List.mem_cons_self .., by simp⟩⟩
      rw [h6] at h4
      obtain ⟨a, -, h4⟩ := h4
      cases y <;> obtain ⟨m', -, h4⟩ := h4 <;> rw [h4] <;> simp
    · rw [h6] at h4 ⊢
      obtain ⟨a, -, h4⟩ := h4
      exact Or.inr ⟨h4, by simp⟩
  constructor
  · rintro ⟨-, -, c, hc, g, hg, hne⟩
    obtain ⟨x, hx, rfl⟩ := List.mem_map.mp hc
    simp only [Bool.false_or, List.any_eq_true]
    refine ⟨x, hx, ?_⟩
    rcases key x hx with ⟨h4, -⟩ | ⟨-, h4⟩
    · simpa using h4
    · exact absurd (h4 g hg) hne
  · intro h
    simp only [Bool.false_or, List.any_eq_true] at h
    obtain ⟨x, hx, h4⟩ := h
    refine ⟨⟨r, rfl⟩, hend, x.1, List.mem_map_of_mem hx, ?_⟩
    rcases key x hx with ⟨-, h5⟩ | ⟨h5, -⟩
    · exact h5
    · rw [h5] at h4; simp at h4

/-! ## C65 -/

/-- **C65**.  What is sent is determined. -/
theorem C65_sends_unique {cs : List Config} {is : List Int} {ds : List Directive} {m : List Sent} (h : Sends cs is ds m) : ∀ {m' : List Sent}, Sends cs is ds m' → m = m' := by
  induction h with
  | done => intro m' h'; cases h'; rfl
  | @missing i is ds hi =>
    intro m' h'
    cases h' with
    | missing _ => rfl
    | config h2 => have := (List.getElem?_eq_some_iff.mp h2).1; omega
  | @config i is ds c m1 m2 hc h1 h2 ih1 ih2 =>
    intro m' h'
    generalize hi : (i : Int) = i' at h'
    cases h' with
    | missing h3 => have := (List.getElem?_eq_some_iff.mp hc).1; omega
    | @config j _ _ c' m1' m2' h3 h4 h5 =>
      have : i = j := by omega
      subst this
      rw [hc] at h3; cases h3
      rw [ih1 h4, ih2 h5]
  | plain hb hn _ ih =>
    intro m' h'
    rcases sends_block_none hb h' with ⟨h1, -⟩ | ⟨-, m2, h1, rfl⟩
    · exact absurd h1 hn
    · rw [ih h1]
  | incl hb hi _ ih =>
    intro m' h'
    rcases sends_block_none hb h' with ⟨-, h1⟩ | ⟨h1, -⟩
    · exact ih h1
    · exact absurd hi h1
  | blockError hb _ he ih =>
    intro m' h'
    obtain ⟨a, h1, ⟨-, rfl⟩ | ⟨h2, -⟩⟩ := sends_block_some hb h'
    · rw [ih h1]
    · rw [← ih h1, he] at h2; cases h2
  | block hb _ he hn _ ih1 ih2 =>
    intro m' h'
    obtain ⟨a, h1, ⟨h2, -⟩ | ⟨-, ⟨h2, -⟩ | ⟨-, m2, h2, rfl⟩⟩⟩ := sends_block_some hb h'
    · rw [← ih1 h1, he] at h2; cases h2
    · exact absurd h2 hn
    · rw [ih2 h2]
  | blockIncl hb _ he hi _ ih1 ih2 =>
    intro m' h'
    obtain ⟨a, h1, ⟨h2, -⟩ | ⟨-, ⟨-, h2⟩ | ⟨h2, -⟩⟩⟩ := sends_block_some hb h'
    · rw [← ih1 h1, he] at h2; cases h2
    · exact ih2 h2
    · exact absurd hi h2

theorem sends_idxs {cs : List Config} {ds : List Directive} {m : List Sent} (h : Sends cs [] ds m) : ∀ (is : List Int), (∀ i ∈ is, 0 ≤ i) →
    (∀ (j : Nat) c, (j : Int) ∈ is → cs[j]? = some c → ∃ a, Sends cs [] c.parsed a) → ∃ m', Sends cs is ds m'
  | [], _, _ => ⟨m, h⟩
  | i :: is, hn, hj => by
    by_cases hi : i ≥ cs.length
    · exact ⟨_, .missing hi⟩
    · obtain ⟨j, rfl⟩ := Int.eq_ofNat_of_zero_le (hn i (by simp))
      have hlt : j < cs.length := by omega
      obtain ⟨a, ha⟩ := hj j _ (by simp) (List.getElem?_eq_getElem hlt)
      obtain ⟨m', hm⟩ := sends_idxs h is (fun i hi => hn i (by simp [hi])) (fun j c h1 h2 => hj j c (by simp [h1]) h2)
      exact ⟨_, .config (List.getElem?_eq_getElem hlt) ha hm⟩

theorem sends_list {cs : List Config} (ds : List Directive) : NoNegative ds →
    (∀ d, Within d ds → IsInclude d → ∀ (j : Nat) c, (j : Int) ∈ d.includes.getD [] → cs[j]? = some c → ∃ a, Sends cs [] c.parsed a) → ∃ m, Sends cs [] ds m := by
  induction ds using listInd with
  | h0 => exact fun _ _ => ⟨[], .done⟩
  | h1 d ds hb ih =>
    intro hn hj
    obtain ⟨m, hm⟩ := ih hn.tail (fun x hx => hj x (by
      cases hx with
      | here hm => exact .here (List.mem_cons_of_mem _ hm)
      | deep hm h1 h2 => exact .deep (List.mem_cons_of_mem _ hm) h1 h2))
    have hself : Within d (d :: ds) := .here (by simp)
    cases hd : d.block with
    | none =>
      by_cases hi : IsInclude d
      · obtain ⟨m', hm'⟩ := sends_idxs hm (d.includes.getD []) (hn d hself) (hj d hself hi)
        exact ⟨m', .incl hd hi hm'⟩
      · exact ⟨_, .plain hd hi hm⟩
    | some b =>
      obtain ⟨a, ha⟩ := hb b hd (fun x hx => hn x (.deep (by simp) hd hx)) (fun x hx => hj x (.deep (by simp) hd hx))
      cases he : hasError a with
      | true => exact ⟨_, .blockError hd ha he⟩
      | false =>
        by_cases hi : IsInclude d
        · obtain ⟨m', hm'⟩ := sends_idxs hm (d.includes.getD []) (hn d hself) (hj d hself hi)
          exact ⟨m', .blockIncl hd ha he hi hm'⟩
        · exact ⟨_, .block hd ha he hi hm⟩

/-- **C65**.  Without circles and negative indices there is something that is sent (possibly nothing at all). -/
theorem C65_sends_exists {cs : List Config} (hcyc : Acyclic cs) (hneg : ∀ cfg ∈ cs, NoNegative cfg.parsed) {c0 : Config} (h0 : c0 ∈ cs) : ∃ m, Sends cs [] c0.parsed m := by
  obtain ⟨i, hi⟩ := List.mem_iff_getElem?.mp h0
  induction i using hcyc.wf.induction generalizing c0 with
  | _ i ih =>
    refine sends_list _ (hneg c0 h0) fun d hd hinc j c hj hc => ?_
    exact ih j ⟨(List.getElem?_eq_some_iff.mp hc).1, d, c0, hi, hd, hinc, hj⟩ (List.mem_of_getElem? hc) hc

/-- **C65** (exact).  Let `m` be what the goroutine of the first config sends.  No schedule crashes the program; and when nothing can go on any more, `Combined` has
returned, and a goroutine is left behind, blocked forever, iff `m` says so: there are things to send after the first error, in the goroutine of the first config or
in that of a block from which the error came.  The schedule does not matter. -/
theorem C65_leak_iff {p : Payload} {c0 : Config} {rest : List Config} (h : p.config = c0 :: rest) {m : List Sent} (hm : Sends p.config [] c0.parsed m) {k : Nat} {s : CombSt}
    (hr : CombRun p.config k (.init c0) s) : s.main ≠ .crashed ∧ ((∀ s', ¬ CombStep p.config s s') → (Leaks p.config s ↔ leavesBehind m = true)) := by
  have hl := hr.leaves (init_ok c0) (init_leaves hm)
  have hc : s.main ≠ .crashed := by
    intro hc
    obtain ⟨lm, ps, h1, -⟩ := hl
    unfold MainLeaves at h1
    rw [hc] at h1
    exact h1
  refine ⟨hc, fun hend => ?_⟩
  rcases C64_ends h hr hend with h1 | ⟨r, -, h1, -⟩
  · exact absurd h1 hc
  · exact hl.final h1 hend

theorem CombRun.to_end {cs : List Config} {c0 : Config} {K : Nat} (hK : ∀ {k : Nat} {s : CombSt}, CombRun cs k (.init c0) s → k ≤ K) :
    ∀ (n : Nat) {k : Nat} {s : CombSt}, CombRun cs k (.init c0) s → K - k ≤ n → ∃ k' s', CombRun cs k' (.init c0) s' ∧ ∀ s'', ¬ CombStep cs s' s''
  | 0, k, s, hr, hn => ⟨k, s, hr, fun s'' hs => by have := hK hr; have := hK (.tail hr hs); omega⟩
  | n + 1, k, s, hr, hn => by
    by_cases hs : ∃ s'', CombStep cs s s''
    · obtain ⟨s'', hs⟩ := hs
      exact CombRun.to_end hK n (.tail hr hs) (by omega)
    · exact ⟨k, s, hr, fun s'' h => hs ⟨s'', h⟩⟩

/-- The error comes from a block, whose goroutine still has a directive to send: it is always left behind. -/
example {k : Nat} {s : CombSt}
    (hr : CombRun (exPay [[exHttp [exInc [1], exPlain]], [exInc [9]]]).config k (.init { file := c!"f", parsed := [exHttp [exInc [1], exPlain]] }) s)
    (hend : ∀ s', ¬ CombStep (exPay [[exHttp [exInc [1], exPlain]], [exInc [9]]]).config s s') :
    Leaks (exPay [[exHttp [exInc [1], exPlain]], [exInc [9]]]).config s := by
  have h1 : Sends (exPay [[exHttp [exInc [1], exPlain]], [exInc [9]]]).config [] [exInc [9]] [.err false] :=
    .incl rfl ((isInclude_iff _).mp rfl) (.missing (by decide))
  have hn : ¬ IsInclude exPlain := fun h => by have := (isInclude_iff _).mpr h; exact absurd this (by decide)
  have h2 : Sends (exPay [[exHttp [exInc [1], exPlain]], [exInc [9]]]).config [] [exInc [1], exPlain] [.err false, .dir] :=
    .incl rfl ((isInclude_iff _).mp rfl) (.config (i := 1) (m1 := [.err false]) (m2 := [.dir]) rfl h1 (.plain rfl hn .done))
  exact ((C65_leak_iff (p := exPay [[exHttp [exInc [1], exPlain]], [exInc [9]]]) rfl (.blockError rfl h2 rfl) hr).2 hend).mpr rfl

/-- Nothing comes after the error: nothing is left behind, although there is an error. -/
example {k : Nat} {s : CombSt} (hr : CombRun (exPay [[exPlain, exHttp [exInc [9]]]]).config k (.init { file := c!"f", parsed := [exPlain, exHttp [exInc [9]]] }) s) :
    ¬ Leaks (exPay [[exPlain, exHttp [exInc [9]]]]).config s := by
  have h1 : Sends (exPay [[exPlain, exHttp [exInc [9]]]]).config [] [exInc [9]] [.err false] := .incl rfl ((isInclude_iff _).mp rfl) (.missing (by decide))
  have hn : ¬ IsInclude exPlain := fun h => by have := (isInclude_iff _).mpr h; exact absurd this (by decide)
  intro hl
  have := ((C65_leak_iff (p := exPay [[exPlain, exHttp [exInc [9]]]]) rfl (.plain rfl hn (.blockError rfl h1 rfl)) hr).2 hl.2.1).mp hl
  cases this

/-- **C65** (exact), for payloads without circles and negative indices: some schedule leaves a goroutine behind iff every schedule does that goes on as long as it
can, iff there are things to send after the first error. -/
theorem C65_exact {p : Payload} {c0 : Config} {rest : List Config} (h : p.config = c0 :: rest) (hcyc : Acyclic p.config) (hneg : ∀ cfg ∈ p.config, NoNegative cfg.parsed) :
    ∃ m, Sends p.config [] c0.parsed m ∧
      ((∃ k s, CombRun p.config k (.init c0) s ∧ Leaks p.config s) ↔ leavesBehind m = true) ∧
      ∀ {k : Nat} {s : CombSt}, CombRun p.config k (.init c0) s → (∀ s', ¬ CombStep p.config s s') → (Leaks p.config s ↔ leavesBehind m = true) := by
  obtain ⟨m, hm⟩ := C65_sends_exists hcyc hneg (c0 := c0) (by rw [h]; simp)
  refine ⟨m, hm, ⟨?_, fun hl => ?_⟩, fun hr => (C65_leak_iff h hm hr).2⟩
  · rintro ⟨k, s, hr, hl⟩
    exact ((C65_leak_iff h hm hr).2 hl.2.1).mp hl
  · obtain ⟨K, hK⟩ := C64_bounded hcyc c0
    obtain ⟨k, s, hr, hend⟩ := CombRun.to_end hK K (.refl _) (by omega)
    exact ⟨k, s, hr, ((C65_leak_iff h hm hr).2 hend).mpr hl⟩

end Verif
