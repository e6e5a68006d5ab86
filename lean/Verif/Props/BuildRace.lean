import Verif.Model.BuildRace
import Verif.Props.Session
/-!
# C85: build options shared between goroutines
-/
namespace Verif
open Verif.Spec

/-- A goroutine alone. -/
inductive BuildRun (isPrint : Char → Bool) (config : Config) : BuildOptions × BuildPc → BuildOptions × BuildPc → Prop
  | refl {s} : BuildRun isPrint config s s
  | step {o pc s t} : buildStep isPrint config o pc = some s → BuildRun isPrint config s t → BuildRun isPrint config (o, pc) t

theorem BuildRun.inserts {isPrint : Char → Bool} {config : Config} {b : Builder} {regs : List RegisterBuilder} {t : BuildOptions × BuildPc} (names : List Str) :
    ∀ (o : BuildOptions) (m : Str → Option Builder), o.extBuilders = some m →
      BuildRun isPrint config ({ o with extBuilders := some (names.foldl (fun m s => fun k => if k == s then some b else m k) m) }, .apply regs) t →
      BuildRun isPrint config (o, .insert b names regs) t := by
  induction names with
  | nil =>
    intro o m hm h
    refine .step rfl ?_
    have : { o with extBuilders := some m } = o := by cases o; simp only at hm; rw [hm]
    rw [List.foldl_nil, this] at h
    exact h
  | cons s names ih =>
    intro o m hm h
    refine .step rfl (ih _ (fun k => if k == s then some b else m k) (by rw [hm]; rfl) ?_)
    rw [List.foldl_cons] at h
    exact h

theorem BuildRun.applies {isPrint : Char → Bool} {config : Config} {t : BuildOptions × BuildPc} (regs : List RegisterBuilder) :
    ∀ (o : BuildOptions), BuildRun isPrint config (regs.foldl (fun o rb => rb.apply o) o, .render) t → BuildRun isPrint config (o, .apply regs) t := by
  induction regs with
  | nil => intro o h; exact .step rfl h
  | cons rb regs ih =>
    intro o h
    rw [List.foldl_cons] at h
    have h := ih _ h
    refine .step rfl ?_
    cases hm : o.extBuilders with
    | none =>
      simp only [Option.isNone_none, if_true]
      refine .step rfl (.inserts _ _ (fun _ => none) rfl ?_)
      simp only [RegisterBuilder.apply, hm, Option.getD_none] at h
      exact h
    | some m =>
      simp only [Option.isNone_some, Bool.false_eq_true, if_false]
      refine .inserts _ _ m hm ?_
      simp only [RegisterBuilder.apply, hm, Option.getD_some] at h
      exact h

/-- C85.  A goroutine alone writes what `Build` writes, and leaves the options `Build` leaves. -/
theorem C85_alone (isPrint : Char → Bool) (config : Config) (o : BuildOptions) :
    BuildRun isPrint config (o, .start) (buildSetup o, .done (buildText isPrint config o)) := by
  have htext : (buildBody isPrint (buildSetup o) config.parsed).map (fun body => (if (buildSetup o).header then header else []) ++ body) = buildText isPrint config o := by
    rw [(buildSetup_keeps o).2.2.1]
    unfold buildText
    cases buildBody isPrint (buildSetup o) config.parsed <;> rfl
  have hcheck : ∀ o1 : BuildOptions, (if o1.extBuilders.isNone then applyBuilders o1 else o1) = buildSetup o →
      BuildRun isPrint config (o1, .check) (buildSetup o, .done (buildText isPrint config o)) := by
    intro o1 h1
    refine .step rfl ?_
    rw [← htext]
    by_cases hn : o1.extBuilders.isNone = true
    · rw [if_pos hn] at h1 ⊢
      refine .applies _ _ ?_
      rw [show o1.builders.foldl (fun o rb => rb.apply o) o1 = buildSetup o from h1]
      exact .step rfl .refl
    · rw [if_neg hn] at h1 ⊢
      rw [h1]
      exact .step rfl .refl
  refine .step rfl ?_
  by_cases hi : o.indent = 0
  · rw [hi, if_pos (by decide)]
    refine .step rfl (hcheck _ ?_)
    simp [buildSetup, hi]
  · rw [if_neg (by simpa using hi)]
    refine hcheck _ ?_
    simp [buildSetup, hi]

theorem ready_text (isPrint : Char → Bool) (p : Settings) (config : Config) :
    (buildBody isPrint p.ready config.parsed).map (fun body => (if p.ready.header then header else []) ++ body) = buildText isPrint config p.fresh := by
  unfold buildText
  rw [(Used.fresh p).setup]
  cases buildBody isPrint p.ready config.parsed <;> rfl

/-- C85.  If Indent is not 0 and there are no builders, or if `Build` was called with the options before, any number of goroutines may use them at the same time: no goroutine is
ever about to write to them, and every goroutine that has finished has written what it would write alone. -/
theorem C85 (isPrint : Char → Bool) (configs : Nat → Config) (p : Settings) {o : BuildOptions} {gs : Nat → BuildPc}
    (h : BuildReach isPrint configs (p.ready, fun _ => .start) (o, gs)) :
    o = p.ready ∧ ∀ i, ¬ (gs i).Writes ∧ ∀ text, gs i = .done text → text = buildText isPrint (configs i) p.fresh := by
  suffices key : ∀ s, BuildReach isPrint configs (p.ready, fun _ => .start) s → s.1 = p.ready ∧
      ∀ i, s.2 i = .start ∨ s.2 i = .check ∨ s.2 i = .apply [] ∨ s.2 i = .render ∨ s.2 i = .done (buildText isPrint (configs i) p.fresh) by
    obtain ⟨h1, h2⟩ := key _ h
    refine ⟨h1, fun i => ?_⟩
    rcases h2 i with h | h | h | h | h <;> simp only at h <;> rw [h] <;> refine ⟨fun hw => hw, fun text ht => ?_⟩ <;> cases ht
    rfl
  intro s h
  induction h with
  | refl => exact ⟨rfl, fun _ => .inl rfl⟩
  | tail _ hs ih =>
    cases hs with
    | @step o1 o2 gs1 pc i hstep =>
      obtain ⟨h1, h2⟩ := ih
      simp only at h1 h2
      subst h1
      have hi : p.ready.indent ≠ 0 := by
        unfold Settings.ready
        simp only
        split <;> omega
      have hready : p.ready.builders = p.builders := rfl
      have hext : p.ready.extBuilders.isNone = true → p.builders = [] := by
        unfold Settings.ready
        simp only
        split <;> simp_all
      have hnew : o2 = p.ready ∧ (pc = .start ∨ pc = .check ∨ pc = .apply [] ∨ pc = .render ∨ pc = .done (buildText isPrint (configs i) p.fresh)) := by
        rcases h2 i with h | h | h | h | h <;> rw [h] at hstep
        · simp only [buildStep, beq_iff_eq, hi, if_false, Option.some.injEq, Prod.mk.injEq] at hstep
          exact ⟨hstep.1.symm, .inr (.inl hstep.2.symm)⟩
        · simp only [buildStep, Option.some.injEq, Prod.mk.injEq] at hstep
          refine ⟨hstep.1.symm, ?_⟩
          by_cases hn : p.ready.extBuilders.isNone = true
          · rw [if_pos hn, hready, hext hn] at hstep
            exact .inr (.inr (.inl hstep.2.symm))
          · rw [if_neg hn] at hstep
            exact .inr (.inr (.inr (.inl hstep.2.symm)))
        · simp only [buildStep, Option.some.injEq, Prod.mk.injEq] at hstep
          exact ⟨hstep.1.symm, .inr (.inr (.inr (.inl hstep.2.symm)))⟩
        · simp only [buildStep, Option.some.injEq, Prod.mk.injEq] at hstep
          rw [ready_text] at hstep
          exact ⟨hstep.1.symm, .inr (.inr (.inr (.inr hstep.2.symm)))⟩
        · cases hstep
      refine ⟨hnew.1, fun j => ?_⟩
      by_cases hj : j = i
      · subst hj; simp only [if_true]; exact hnew.2
      · simp only [hj, if_false]; exact h2 j

/-- The options of C85 are those that any call of `Build` leaves, and new ones with an indent and without builders. -/
theorem C85_ready (p : Settings) : (∀ o, Used p o → buildSetup o = p.ready) ∧ (p.indent ≠ 0 → p.builders = [] → p.fresh = p.ready) := by
  refine ⟨fun o h => h.setup, fun hi hb => ?_⟩
  unfold Settings.ready Settings.fresh
  rw [if_neg hi, if_pos hb]

/-- C85 with an indent of 0 and without builders: every goroutine that has finished has written what it would write alone. -/
theorem C85_indent (isPrint : Char → Bool) (configs : Nat → Config) (p : Settings) (hb : p.builders = []) {o : BuildOptions} {gs : Nat → BuildPc}
    (h : BuildReach isPrint configs (p.fresh, fun _ => .start) (o, gs)) (i : Nat) (text : Option Str) (ht : gs i = .done text) : text = buildText isPrint (configs i) p.fresh := by
  by_cases hp : p.indent = 0
  swap
  · have hr := (C85_ready p).2 hp hb
    exact (C85 isPrint configs p (by rw [← hr]; exact h)).2 i |>.2 text ht
  suffices key : ∀ s, BuildReach isPrint configs (p.fresh, fun _ => .start) s → (s.1 = p.fresh ∨ s.1 = p.ready) ∧
      ∀ i, s.2 i = .start ∨ s.2 i = .setIndent ∨ (s.1 = p.ready ∧ (s.2 i = .check ∨ s.2 i = .apply [] ∨ s.2 i = .render)) ∨ s.2 i = .done (buildText isPrint (configs i) p.fresh) by
    rcases (key _ h).2 i with h | h | ⟨-, h | h | h⟩ | h <;> simp only at h <;> rw [h] at ht <;> cases ht
    rfl
  intro s h
  have hset : ∀ q, (q = p.fresh ∨ q = p.ready) → { q with indent := 4 } = p.ready := by
    intro q hq
    rcases hq with rfl | rfl <;> simp [Settings.fresh, Settings.ready, hp, hb]
  induction h with
  | refl => exact ⟨.inl rfl, fun _ => .inl rfl⟩
  | tail _ hs ih =>
    cases hs with
    | @step o1 o2 gs1 pc i hstep =>
      obtain ⟨h1, h2⟩ := ih
      simp only at h1 h2
      have hnew : (o2 = o1 ∨ o2 = p.ready) ∧
          (pc = .start ∨ pc = .setIndent ∨ (o2 = p.ready ∧ (pc = .check ∨ pc = .apply [] ∨ pc = .render)) ∨ pc = .done (buildText isPrint (configs i) p.fresh)) := by
        rcases h2 i with h | h | ⟨e, h | h | h⟩ | h <;> rw [h] at hstep
        · simp only [buildStep, Option.some.injEq, Prod.mk.injEq] at hstep
          refine ⟨.inl hstep.1.symm, ?_⟩
          rcases h1 with e | e
          · rw [e, show p.fresh.indent = 0 from hp, if_pos (by decide)] at hstep
            exact .inr (.inl hstep.2.symm)
          · rw [e, if_neg (by simp [Settings.ready, hp])] at hstep
            exact .inr (.inr (.inl ⟨hstep.1.symm, .inl hstep.2.symm⟩))
        · simp only [buildStep, Option.some.injEq, Prod.mk.injEq] at hstep
          rw [hset o1 h1] at hstep
          exact ⟨.inr hstep.1.symm, .inr (.inr (.inl ⟨hstep.1.symm, .inl hstep.2.symm⟩))⟩
        · simp only [buildStep, Option.some.injEq, Prod.mk.injEq] at hstep
          rw [e, if_pos (by simp [Settings.ready, hb]), show p.ready.builders = [] from hb] at hstep
          exact ⟨.inr hstep.1.symm, .inr (.inr (.inl ⟨hstep.1.symm, .inr (.inl hstep.2.symm)⟩))⟩
        · simp only [buildStep, Option.some.injEq, Prod.mk.injEq] at hstep
          rw [e] at hstep
          exact ⟨.inr hstep.1.symm, .inr (.inr (.inl ⟨hstep.1.symm, .inr (.inr hstep.2.symm)⟩))⟩
        · simp only [buildStep, Option.some.injEq, Prod.mk.injEq] at hstep
          rw [e, ready_text] at hstep
          exact ⟨.inr hstep.1.symm, .inr (.inr (.inr hstep.2.symm))⟩
        · cases hstep
      refine ⟨?_, fun j => ?_⟩
      · rcases hnew.1 with e | e
        · simp only [e]; exact h1
        · exact .inr e
      · by_cases hj : j = i
        · subst hj; simp only [if_true]; exact hnew.2
        · simp only [hj, if_false]
          rcases h2 j with h | h | ⟨e, h⟩ | h
          · exact .inl h
          · exact .inr (.inl h)
          · refine .inr (.inr (.inl ⟨?_, h⟩))
            rcases hnew.1 with e' | e'
            · rw [e']; exact e
            · exact e'
          · exact .inr (.inr (.inr h))

/-- Two configs with the directive `x`. -/
def exConfigs : Nat → Config := fun _ => { file := c!"f", parsed := [dir c!"x" 1 []] }

/-- C85 is false for new options with builders: the second goroutine finds a map that the first one has not filled yet, and writes the directive without its builder. -/
theorem C85_false_builders : ∃ (p : Settings) (o : BuildOptions) (gs : Nat → BuildPc), BuildReach (fun _ => true) exConfigs (p.fresh, fun _ => .start) (o, gs) ∧
    gs 1 = .done (some c!"x;") ∧ buildText (fun _ => true) (exConfigs 1) p.fresh = some c!"X" := by
  refine ⟨{ indent := 4, builders := [exBuilder c!"X"] }, _, _,
    .tail (.tail (.tail (.tail (.tail (.tail (.tail .refl (.step 0 rfl)) (.step 0 rfl)) (.step 0 rfl)) (.step 0 rfl)) (.step 1 rfl)) (.step 1 rfl)) (.step 1 rfl), ?_, by decide +kernel⟩
  refine congrArg BuildPc.done (?_ : _ = some c!"x;")
  decide +kernel

/-- After a first call two goroutines use the builder. -/
example : ∃ (p : Settings) (o : BuildOptions) (gs : Nat → BuildPc), BuildReach (fun _ => true) exConfigs (p.ready, fun _ => .start) (o, gs) ∧
    gs 0 = .done (some c!"X") ∧ gs 1 = .done (some c!"X") := by
  refine ⟨{ builders := [exBuilder c!"X"] }, _, _,
    .tail (.tail (.tail (.tail (.tail (.tail .refl (.step 0 rfl)) (.step 1 rfl)) (.step 0 rfl)) (.step 1 rfl)) (.step 1 rfl)) (.step 0 rfl), ?_, ?_⟩ <;>
  · refine congrArg BuildPc.done (?_ : _ = some c!"X")
    decide +kernel

/-- With an indent of 0 two goroutines may be about to write to the options at the same time: a data race. -/
theorem C85_race : ∃ (o : BuildOptions) (gs : Nat → BuildPc), BuildReach (fun _ => true) exConfigs (({} : Settings).fresh, fun _ => .start) (o, gs) ∧ (gs 0).Writes ∧ (gs 1).Writes :=
  ⟨_, _, .tail (.tail .refl (.step 0 rfl)) (.step 1 rfl), trivial, trivial⟩

end Verif
