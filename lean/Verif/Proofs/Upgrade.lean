import Verif.Spec.Covers
import Verif.Proofs.Visits
import Verif.Props.Include
import Verif.Proofs.Analyze
/-!
# Options under which at least the same statements are accepted
-/
namespace Verif
open Spec

/-- The options with other fields for the statement check. -/
abbrev recheck (o : ParseOptions) (fs : List MatchFunc) (unknown ctx args : Bool) : ParseOptions :=
  { o with directiveSources := fs, errorOnUnknownDirectives := unknown, skipDirectiveContextCheck := ctx, skipDirectiveArgsCheck := args }

/-- Where an outcome of a round leaves the state. -/
def Step.state : Step → PS
  | .stop _ ps => ps
  | .fail _ _ ps => ps
  | .next _ _ ps => ps
  | .block _ _ _ ps => ps

theorem handleError_adds (o : ParseOptions) (file : Str) (ps : PS) (e : GoErr) : (handleError o file ps e).payErrors ≠ [] := by
  have : ∃ x, (handleError o file ps e).payErrors = ps.payErrors ++ [x] := ⟨_, rfl⟩
  obtain ⟨x, hx⟩ := this
  rw [hx]; simp

/-- The names of the statements that a round adds. -/
def Step.names : Step → List Str
  | .next new _ _ => new.map (·.directive)
  | .block stmt _ _ _ => [stmt.directive]
  | _ => []

theorem prepIf_name {a b : Directive} (h : prepIf a = some b) : b.directive = a.directive := by
  rw [prepIf_some h]

theorem enterBlockCtx_errors (stmt : Directive) (ctx : Ctx) (ps : PS) : (enterBlockCtx stmt ctx ps).2.payErrors = ps.payErrors := by
  unfold enterBlockCtx
  split
  · rfl
  · split <;> rfl

theorem addIncludes_name (file : Str) (ctx : Ctx) (names : List Str) (stmt : Directive) (ps : PS) :
    (addIncludes file ctx stmt ps names).1.directive = stmt.directive := by
  induction names generalizing stmt ps with
  | nil => rfl
  | cons f names ih =>
    unfold addIncludes
    refine (ih _ _).trans ?_
    unfold addInclude
    cases ps.included.lookup f <;> rfl

theorem doInclude_name {env : Env} {o : ParseOptions} {configDir file : Str} {ctx : Ctx} {stmt stmt' : Directive} {ps ps' : PS}
    (h : doInclude env o configDir file ctx stmt ps = (.ok stmt', ps')) : stmt'.directive = stmt.directive := by
  have hi := doInclude_inclR env o configDir file ctx stmt ps
  rw [h] at hi
  generalize hr : ((Res.ok stmt', ps') : Res Directive × PS) = r at hi
  cases hi <;> cases hr <;> first | rfl | exact addIncludes_name ..

/-- A round without errors is the same under options that accept at least the same statements. -/
theorem step_recheck {P : Str → Prop} {o : ParseOptions} {fs : List MatchFunc} {u c a : Bool}
    (h : ∀ file stmt term ctx, P stmt.directive → analyze file stmt term ctx o = none → analyze file stmt term ctx (recheck o fs u c a) = none)
    {env : Env} {configDir file : Str} {ctx : Ctx} {t : Tok} {toks : List Tok} {ps : PS}
    (he : (step env o configDir file ctx t toks ps).state.payErrors = [])
    (hf : ∀ e toks' ps', step env o configDir file ctx t toks ps ≠ .fail e toks' ps')
    (hn : ∀ n ∈ (step env o configDir file ctx t toks ps).names, P n) :
    step env (recheck o fs u c a) configDir file ctx t toks ps = step env o configDir file ctx t toks ps := by
  have hs := step_cases env o configDir file ctx t toks ps
  generalize step env o configDir file ctx t toks ps = s at hs he hf hn ⊢
  have hr : ∀ {args comments term rest}, Reads o t toks args comments term rest → Reads (recheck o fs u c a) t toks args comments term rest :=
    fun R => ⟨R.noErr, R.notClose, R.notComment, R.read⟩
  have hd : ∀ stmt, doInclude env (recheck o fs u c a) configDir file ctx stmt ps = doInclude env o configDir file ctx stmt ps := fun _ => rfl
  cases hs with
  | tokErr e h1 => exact absurd rfl (hf _ _ _)
  | close h1 h2 => exact (StepR.close h1 h2).step_eq
  | comment h1 h2 h3 => exact (StepR.comment (o := recheck o fs u c a) h1 h2 h3).step_eq
  | premature h1 h2 h3 h4 => exact absurd rfl (hf _ _ _)
  | mapFail => exact absurd rfl (hf _ _ _)
  | mapBad => exact absurd he (handleError_adds o file ps _)
  | mapOk args comments term rest m R h1 h2 => exact (StepR.mapOk (o := recheck o fs u c a) _ _ _ _ _ (hr R) h1 h2).step_eq
  | ignored args comments term rest R h1 h2 => exact (StepR.ignored (o := recheck o fs u c a) _ _ _ _ (hr R) h1 h2).step_eq
  | rejectFail => exact absurd rfl (hf _ _ _)
  | rejectSkip => exact absurd he (handleError_adds o file ps _)
  | rejectStop => exact absurd he (handleError_adds o file ps _)
  | reject => exact absurd he (handleError_adds o file ps _)
  | panic => exact absurd rfl (hf _ _ _)
  | inclFail => exact absurd rfl (hf _ _ _)
  | simple args comments term rest stmt stmt' ps' R h1 h2 h3 h4 h5 h6 =>
    have hname : P t.value := by
      have := hn stmt'.directive (by simp [Step.names])
      rwa [doInclude_name h5, prepIf_name h4] at this
    exact (StepR.simple (o := recheck o fs u c a) _ _ _ _ _ _ _ (hr R) h1 h2 (h _ _ _ _ hname h3) h4 ((hd _).trans h5) h6).step_eq
  | block args comments term rest stmt stmt' ps' R h1 h2 h3 h4 h5 h6 =>
    have hname : P t.value := by
      have := hn stmt'.directive (by simp [Step.names])
      rwa [doInclude_name h5, prepIf_name h4] at this
    exact (StepR.block (o := recheck o fs u c a) _ _ _ _ _ _ _ (hr R) h1 h2 (h _ _ _ _ hname h3) h4 ((hd _).trans h5) h6).step_eq

theorem prefix_nil {α : Type} {a b : List α} (h : a <+: b) (hb : b = []) : a = [] := by
  subst hb; exact List.prefix_nil.mp h

/-- Runs without errors are the same. -/
theorem RunOk.recheck {P : Str → Prop} {o : ParseOptions} {fs : List MatchFunc} {u c a : Bool}
    (h : ∀ file stmt term ctx, P stmt.directive → analyze file stmt term ctx o = none → analyze file stmt term ctx (recheck o fs u c a) = none)
    {env : Env} {configDir file : Str} {ctx : Ctx} {toks toks' : List Tok} {ps ps' : PS} {ds : List Directive}
    (hr : RunOk env o configDir file ctx toks ps ds toks' ps') (he : ps'.payErrors = []) (hn : ∀ d, Within d ds → P d.directive) :
    RunOk env (recheck o fs u c a) configDir file ctx toks ps ds toks' ps' := by
  induction hr with
  | eof ctx ps => exact .eof _ _
  | stop ctx t toks ps toks' ps' hs =>
    refine .stop _ _ _ _ _ _ ((step_recheck h ?_ ?_ ?_).trans hs)
    · rw [hs]; exact he
    · intro e t p hc; rw [hs] at hc; cases hc
    · rw [hs]; simp [Step.names]
  | next ctx t toks ps new toks1 ps1 ds toks' ps' hs hr ih =>
    refine .next _ _ _ _ _ _ _ _ _ _ ((step_recheck h ?_ ?_ ?_).trans hs) (ih he fun d hd => hn d (within_append.mpr (Or.inr hd)))
    · rw [hs]; exact prefix_nil ((payErrors_rel o file).runOk hr) he
    · intro e t p hc; rw [hs] at hc; cases hc
    · rw [hs]
      intro n hn'
      obtain ⟨d, hd, rfl⟩ := List.mem_map.mp hn'
      exact hn d (within_append.mpr (Or.inl (.here hd)))
  | block ctx t toks ps stmt comments toks1 ps1 b toks2 ps2 ds toks' ps' hs hb hr ihb ih =>
    have h2 : ps2.payErrors = [] := prefix_nil ((payErrors_rel o file).runOk hr) he
    have h1 : (enterBlockCtx stmt ctx ps1).2.payErrors = [] := prefix_nil ((payErrors_rel o file).runOk hb) h2
    refine .block _ _ _ _ _ _ _ _ _ _ _ _ _ _ ((step_recheck h ?_ ?_ ?_).trans hs) (ihb h2 ?_) (ih he ?_)
    · rw [hs]
      exact (enterBlockCtx_errors stmt ctx ps1).symm.trans h1
    · intro e t p hc; rw [hs] at hc; cases hc
    · rw [hs]
      intro n hn'
      obtain rfl := List.mem_singleton.mp hn'
      exact hn { stmt with block := some b } (.here (by simp))
    · exact fun d hd => hn d (within_cons.mpr (Or.inr (Or.inl ⟨b, rfl, hd⟩)))
    · exact fun d hd => hn d (within_cons.mpr (Or.inr (Or.inr (within_append.mpr (Or.inr hd)))))

/-- The worklist loop without errors is the same. -/
theorem FilesOk.recheck {P : Str → Prop} {o : ParseOptions} {fs : List MatchFunc} {u c a : Bool}
    (h : ∀ file stmt term ctx, P stmt.directive → analyze file stmt term ctx o = none → analyze file stmt term ctx (recheck o fs u c a) = none)
    {env : Env} {configDir : Str} {ps ps' : PS} {cs : List Config}
    (hr : FilesOk env o configDir ps cs ps') (he : ps'.payErrors = []) (hn : ∀ cfg ∈ cs, ∀ d, Within d cfg.parsed → P d.directive) :
    FilesOk env (Verif.recheck o fs u c a) configDir ps cs ps' := by
  induction hr with
  | nil ps hi => exact .nil _ hi
  | ok ps incl rest data ds toks' ps1 cs ps' hi ho hr hf ih =>
    refine .ok _ _ _ _ _ _ _ _ _ hi ho (hr.recheck h (prefix_nil hf.errors_grow he) fun d hd => hn (fileConfig incl.path ps1 ds) (by simp) d hd) (ih he fun cfg hc => hn cfg (by simp [hc]))
  | bad ps incl rest data e toks' ps1 cs ps' hi ho hr hs hf ih =>
    exact absurd (prefix_nil hf.errors_grow he) (handleError_adds o incl.path ps1 e)

/-- The bits of the contexts. -/
theorem lookup_context (ctx : List Str) :
    ∃ bit : Option Nat, contexts.lookup (ctxKey ctx) = bit.map (2 ^ ·) ∧ ∀ b, bit = some b → 16 ≤ b := by
  have : ∀ (l : List (Str × Nat)) (k : Str), (∀ e ∈ l, ∃ b, e.2 = 2 ^ b ∧ 16 ≤ b) →
      ∃ bit : Option Nat, l.lookup k = bit.map (2 ^ ·) ∧ ∀ b, bit = some b → 16 ≤ b := by
    intro l k
    induction l with
    | nil => intro _; exact ⟨none, rfl, by simp⟩
    | cons e l ih =>
      intro h
      rw [List.lookup_cons]
      split
      · obtain ⟨b, hb, hb'⟩ := h e (by simp)
        exact ⟨some b, by simp [hb], by rintro _ ⟨⟩; exact hb'⟩
      · exact ih (fun e he => h e (by simp [he]))
  apply this
  have : (contexts.map (·.2)).all (fun m => (List.range 40).any fun b => decide (16 ≤ b) && m == 2 ^ b) = true := by decide
  intro e he
  have := List.all_eq_true.mp this _ (List.mem_map.mpr ⟨e, he, rfl⟩)
  obtain ⟨b, -, hb⟩ := List.any_eq_true.mp this
  simp only [Bool.and_eq_true, decide_eq_true_eq, beq_iff_eq] at hb
  exact ⟨b, hb.2, hb.1⟩

/-- What is accepted with some sources is accepted with sources that cover them. -/
theorem analyze_covers {P : Str → Prop} {o : ParseOptions} {new : List MatchFunc} (hc : Covers P (sourcesOf o) (sourcesOf { o with directiveSources := new }))
    (hu : o.errorOnUnknownDirectives = true ∨ ∀ name, P name → Known (sourcesOf { o with directiveSources := new }) name → Known (sourcesOf o) name)
    (fname : Str) (stmt : Directive) (term : Str) (ctx : List Str) (hP : P stmt.directive)
    (h : analyze fname stmt term ctx o = none) : analyze fname stmt term ctx { o with directiveSources := new } = none := by
  obtain ⟨bit, hb, hbit⟩ := lookup_context ctx
  rw [analyze_iff _ _ _ _ _ bit hb] at h ⊢
  refine ⟨fun hs => hc.known _ hP (h.1 hs), fun b e hk => ?_⟩
  have hk' : Known (sourcesOf o) stmt.directive := by
    rcases hu with hu | hu
    · exact h.1 hu
    · exact hu _ hP hk
  obtain ⟨h1, h2⟩ := h.2 b e hk'
  refine ⟨?_, ?_⟩
  · rcases h1 with h1 | ⟨m, hm, hmb⟩
    · exact Or.inl h1
    · obtain ⟨m', a1, a2, -⟩ := hc.context _ m b hP hm (hbit b e) hmb
      exact Or.inr ⟨m', a1, a2⟩
  · rcases h2 with h2 | ⟨m, hm, hs | hmb, hok⟩
    · exact Or.inl h2
    · obtain ⟨m', a1, a2⟩ := hc.anywhere _ m hP hm
      exact Or.inr ⟨m', a1, Or.inl hs, a2 _ _ hok⟩
    · obtain ⟨m', a1, a2, a3⟩ := hc.context _ m b hP hm (hbit b e) hmb
      exact Or.inr ⟨m', a1, Or.inr a2, a3 _ _ hok⟩

end Verif
