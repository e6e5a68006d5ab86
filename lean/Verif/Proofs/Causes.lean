import Verif.Spec.Causes
import Verif.Props.Include
import Verif.Props.Grammar
import Verif.Proofs.Restable
/-!
# Every error comes from a round of the parser
-/
namespace Verif
open Spec

/-! ## Rounds -/

theorem doInclude_error {env : Env} {o : ParseOptions} {configDir file : Str} {ctx : Ctx} {stmt : Directive} {ps : PS} {e : GoErr} {ps' : PS}
    (h : doInclude env o configDir file ctx stmt ps = (.err e, ps')) : stmt.directive = c!"include" := by
  unfold doInclude at h
  split at h
  · rename_i hc
    simp only [Bool.and_eq_true, beq_iff_eq] at hc
    exact hc.2
  · cases h

theorem addIncludes_errors (file : Str) (ctx : Ctx) (names : List Str) : ∀ (stmt : Directive) (ps : PS),
    (addIncludes file ctx stmt ps names).2.payErrors = ps.payErrors ∧ (addIncludes file ctx stmt ps names).2.cfgErrors = ps.cfgErrors := by
  induction names with
  | nil => intro stmt ps; exact ⟨rfl, rfl⟩
  | cons f names ih =>
    intro stmt ps
    have h : (addInclude file ctx stmt ps f).2.payErrors = ps.payErrors ∧ (addInclude file ctx stmt ps f).2.cfgErrors = ps.cfgErrors := by
      unfold addInclude
      cases ps.included.lookup f <;> exact ⟨rfl, rfl⟩
    rw [addIncludes]
    exact ⟨(ih _ _).1.trans h.1, (ih _ _).2.trans h.2⟩

theorem enterBlockCtx_bothErrors (stmt : Directive) (ctx : Ctx) (ps : PS) :
    (enterBlockCtx stmt ctx ps).2.payErrors = ps.payErrors ∧ (enterBlockCtx stmt ctx ps).2.cfgErrors = ps.cfgErrors := by
  unfold enterBlockCtx
  split
  · exact ⟨rfl, rfl⟩
  · split <;> exact ⟨rfl, rfl⟩

/-- The errors that a round adds, and the error with which it fails, are mistakes of the round. -/
theorem step_causes (env : Env) (o : ParseOptions) (configDir file : Str) (ctx : Ctx) (t : Tok) (toks : List Tok) (ps : PS) :
    (∀ pe ∈ (step env o configDir file ctx t toks ps).ps.payErrors, pe ∈ ps.payErrors ∨
      RoundError env o configDir file ctx t toks ps pe.error ∧ pe.file = file ∧ pe.line = pe.error.line?) ∧
    ∀ e toks' ps', step env o configDir file ctx t toks ps = .fail (some e) toks' ps' → RoundError env o configDir file ctx t toks ps e := by
  have added : ∀ {ps1 : PS} {e : GoErr}, ps1.payErrors = ps.payErrors → RoundError env o configDir file ctx t toks ps e →
      ∀ pe ∈ (handleError o file ps1 e).payErrors, pe ∈ ps.payErrors ∨
        RoundError env o configDir file ctx t toks ps pe.error ∧ pe.file = file ∧ pe.line = pe.error.line? := by
    intro ps1 e h1 h2 pe hpe
    simp only [handleError, List.mem_append, List.mem_singleton, h1] at hpe
    rcases hpe with hpe | rfl
    · exact Or.inl hpe
    · exact Or.inr ⟨h2, rfl, rfl⟩
  have base : ∀ {args comments : List Str} {term : Tok} {rest : List Tok} {stmt : Directive}, Reads o t toks args comments term rest →
      prepIf (baseStmt o file t args) = some stmt → stmt.directive = c!"include" → stmt = baseStmt o file t args ∧ t.value = c!"include" := by
    intro args comments term rest stmt R hp hd
    have hv : t.value = c!"include" := by rw [prepIf_some hp] at hd; exact hd
    rw [prepIf_other (by rw [baseStmt_directive, hv]; decide)] at hp
    exact ⟨(Option.some.inj hp).symm, hv⟩
  have incl : ∀ {args comments : List Str} {term : Tok} {rest : List Tok} {stmt : Directive} {r : Res Directive} {ps' : PS},
      Reads o t toks args comments term rest → mapCtx ctx.vals = none → contains o.ignoreDirectives t.value = false →
      analyze file (baseStmt o file t args) term.value ctx.vals o = none → prepIf (baseStmt o file t args) = some stmt →
      doInclude env o configDir file ctx stmt ps = (r, ps') →
      (∀ pe ∈ ps'.payErrors, pe ∈ ps.payErrors ∨ RoundError env o configDir file ctx t toks ps pe.error ∧ pe.file = file ∧ pe.line = pe.error.line?) ∧
      ∀ e, r = .err e → RoundError env o configDir file ctx t toks ps e := by
    intro args comments term rest stmt r ps' R hm hi ha hp hd
    have hr := doInclude_inclR env o configDir file ctx stmt ps
    rw [hd] at hr
    have same : ∀ {names : List Str} {ps1 : PS}, ps1.payErrors = ps.payErrors → (addIncludes file ctx stmt ps1 names).2.payErrors = ps.payErrors := by
      intro names ps1 h1
      rw [← h1]
      exact (addIncludes_errors file ctx names stmt ps1).1
    have sf : ∀ {stmt : Directive}, (!o.singleFile && stmt.directive == c!"include") = true → o.singleFile = false ∧ stmt.directive = c!"include" := by
      intro stmt h
      simpa using h
    cases hr with
    | other => exact ⟨fun pe h => Or.inl h, fun e h => by cases h⟩
    | noArgs h1 h2 =>
      refine ⟨fun pe h => Or.inl h, fun e h => ?_⟩
      cases h
      obtain ⟨hs, hn⟩ := sf h1
      obtain ⟨rfl, hv⟩ := base R hp hn
      change args = [] at h2
      subst h2
      exact .noArgs _ _ _ R hm hi ha hs hv
    | globErr a as e h1 h2 h3 h4 =>
      refine ⟨fun pe h => Or.inl h, fun e h => ?_⟩
      cases h
      obtain ⟨hs, hn⟩ := sf h1
      obtain ⟨rfl, hv⟩ := base R hp hn
      change args = _ at h2
      subst h2
      exact .glob _ _ _ _ _ _ R hm hi ha hs hv h3 h4
    | globOk a as names h1 h2 h3 h4 =>
      refine ⟨fun pe h => Or.inl ?_, fun e h => by cases h⟩
      rwa [same (ps1 := { ps with globs := ps.globs + 1 }) rfl] at h
    | openBad a as e h1 h2 h3 h4 h5 =>
      obtain ⟨hs, hn⟩ := sf h1
      obtain ⟨rfl, hv⟩ := base R hp hn
      change args = _ at h2
      subst h2
      exact ⟨added rfl (.openFile _ _ _ _ _ _ R hm hi ha hs hv h3 h4), fun e h => by cases h⟩
    | openFail a as e h1 h2 h3 h4 h5 =>
      obtain ⟨hs, hn⟩ := sf h1
      obtain ⟨rfl, hv⟩ := base R hp hn
      change args = _ at h2
      subst h2
      refine ⟨fun pe h => Or.inl h, fun e h => ?_⟩
      cases h
      exact .openFile _ _ _ _ _ _ R hm hi ha hs hv h3 h4
    | openOk a as data h1 h2 h3 h4 =>
      refine ⟨fun pe h => Or.inl ?_, fun e h => by cases h⟩
      rwa [same (ps1 := { ps with opens := ps.opens + 1 }) rfl] at h
  have hs := step_cases env o configDir file ctx t toks ps
  generalize step env o configDir file ctx t toks ps = s at hs
  have plain : ∀ {P : Prop}, ∀ pe ∈ ps.payErrors, pe ∈ ps.payErrors ∨ P := fun pe h => Or.inl h
  cases hs with
  | tokErr e h => exact ⟨fun pe h => Or.inl h, fun _ _ _ h' => by cases h'; exact .token _ h⟩
  | close => exact ⟨fun pe h => Or.inl h, fun _ _ _ h => by cases h⟩
  | comment => exact ⟨fun pe h => Or.inl h, fun _ _ _ h => by cases h⟩
  | premature h1 h2 h3 h4 => exact ⟨fun pe h => Or.inl h, fun _ _ _ h' => by cases h'; exact .premature h1 h2 h3 h4⟩
  | mapFail args comments term rest m err R h1 h2 h3 => exact ⟨fun pe h => Or.inl h, fun _ _ _ h' => by cases h'; exact .map _ _ _ _ _ _ R h1 h2⟩
  | mapBad args comments term rest m err R h1 h2 h3 => exact ⟨added rfl (.map _ _ _ _ _ _ R h1 h2), fun _ _ _ h => by cases h⟩
  | mapOk => exact ⟨fun pe h => Or.inl h, fun _ _ _ h => by cases h⟩
  | ignored => exact ⟨fun pe h => Or.inl h, fun _ _ _ h => by cases h⟩
  | rejectFail args comments term rest err R h1 h2 h3 h4 =>
    exact ⟨fun pe h => Or.inl h, fun _ _ _ h' => by cases h'; exact .rejected _ _ _ _ _ R h1 h2 h3⟩
  | rejectSkip args comments term rest err R h1 h2 h3 => exact ⟨added rfl (.rejected _ _ _ _ _ R h1 h2 h3), fun _ _ _ h => by cases h⟩
  | rejectStop args comments term rest err R h1 h2 h3 => exact ⟨added rfl (.rejected _ _ _ _ _ R h1 h2 h3), fun _ _ _ h => by cases h⟩
  | reject args comments term rest err R h1 h2 h3 => exact ⟨added rfl (.rejected _ _ _ _ _ R h1 h2 h3), fun _ _ _ h => by cases h⟩
  | panic => exact ⟨fun pe h => Or.inl h, fun _ _ _ h => by cases h⟩
  | inclFail args comments term rest stmt e ps' R h1 h2 h3 h4 h5 =>
    obtain ⟨g1, g2⟩ := incl R h1 h2 h3 h4 h5
    exact ⟨g1, fun _ _ _ h => by cases h; exact g2 _ rfl⟩
  | simple args comments term rest stmt stmt' ps' R h1 h2 h3 h4 h5 h6 =>
    exact ⟨(incl R h1 h2 h3 h4 h5).1, fun _ _ _ h => by cases h⟩
  | block args comments term rest stmt stmt' ps' R h1 h2 h3 h4 h5 h6 =>
    exact ⟨(incl R h1 h2 h3 h4 h5).1, fun _ _ _ h => by cases h⟩

/-! ## Runs -/

/-- The mistake of a round among those visited. -/
def Met (env : Env) (o : ParseOptions) (configDir file : Str) (ctx : Ctx) (toks : List Tok) (ps : PS) (e : GoErr) : Prop :=
  ∃ ctx' t toks' ps', Visits env o configDir file ctx toks ps ctx' t toks' ps' ∧ RoundError env o configDir file ctx' t toks' ps' e

/-- The errors that a run adds. -/
def NewErrors (env : Env) (o : ParseOptions) (configDir file : Str) (ctx : Ctx) (toks : List Tok) (ps ps' : PS) : Prop :=
  ∀ pe ∈ ps'.payErrors, pe ∈ ps.payErrors ∨ Met env o configDir file ctx toks ps pe.error ∧ pe.file = file ∧ pe.line = pe.error.line?

theorem step_newErrors (env : Env) (o : ParseOptions) (configDir file : Str) (ctx : Ctx) (t : Tok) (toks : List Tok) (ps : PS) :
    NewErrors env o configDir file ctx (t :: toks) ps (step env o configDir file ctx t toks ps).ps := by
  intro pe hpe
  rcases (step_causes env o configDir file ctx t toks ps).1 pe hpe with h | ⟨h1, h2⟩
  · exact Or.inl h
  · exact Or.inr ⟨⟨_, _, _, _, .here _ _ _ _, h1⟩, h2⟩

theorem NewErrors.trans {env : Env} {o : ParseOptions} {configDir file : Str} {ctx ctx1 : Ctx} {toks toks1 : List Tok} {ps ps1 ps2 psx : PS}
    (h1 : NewErrors env o configDir file ctx toks ps psx) (h2 : NewErrors env o configDir file ctx1 toks1 ps1 ps2) (hx : ps1.payErrors = psx.payErrors)
    (hv : ∀ {ctx' t' toks' ps'}, Visits env o configDir file ctx1 toks1 ps1 ctx' t' toks' ps' → Visits env o configDir file ctx toks ps ctx' t' toks' ps') :
    NewErrors env o configDir file ctx toks ps ps2 := by
  intro pe hpe
  rcases h2 pe hpe with h | ⟨⟨_, _, _, _, h, h'⟩, h''⟩
  · exact h1 pe (hx ▸ h)
  · exact Or.inr ⟨⟨_, _, _, _, hv h, h'⟩, h''⟩

theorem RunOk.causes {env : Env} {o : ParseOptions} {configDir file : Str} {ctx : Ctx} {toks toks' : List Tok} {ps ps' : PS} {ds : List Directive}
    (h : RunOk env o configDir file ctx toks ps ds toks' ps') : NewErrors env o configDir file ctx toks ps ps' := by
  induction h with
  | eof => exact fun pe h => Or.inl h
  | stop ctx t toks ps toks' ps' hs =>
    have := step_newErrors env o configDir file ctx t toks ps
    rw [hs] at this
    exact this
  | next ctx t toks ps new toks1 ps1 ds toks' ps' hs hr ih =>
    have := step_newErrors env o configDir file ctx t toks ps
    rw [hs] at this
    exact this.trans ih rfl fun hv => .next _ _ _ _ _ _ _ _ _ _ _ hs hv
  | block ctx t toks ps stmt comments toks1 ps1 b toks2 ps2 ds toks' ps' hs hr1 hr2 ih1 ih2 =>
    have := step_newErrors env o configDir file ctx t toks ps
    rw [hs] at this
    exact (this.trans ih1 (enterBlockCtx_bothErrors _ _ _).1 fun hv => .inside _ _ _ _ _ _ _ _ _ _ _ _ hs hv).trans ih2 rfl
      fun hv => .after _ _ _ _ _ _ _ _ _ _ _ _ _ _ _ hs hr1 hv

theorem RunFail.causes {env : Env} {o : ParseOptions} {configDir file : Str} {ctx : Ctx} {toks toks' : List Tok} {ps ps' : PS} {e : Option GoErr}
    (h : RunFail env o configDir file ctx toks ps e toks' ps') :
    NewErrors env o configDir file ctx toks ps ps' ∧ ∀ err, e = some err → Met env o configDir file ctx toks ps err := by
  induction h with
  | fail ctx t toks ps e toks' ps' hs =>
    have := step_newErrors env o configDir file ctx t toks ps
    have h2 := (step_causes env o configDir file ctx t toks ps).2
    rw [hs] at this
    refine ⟨this, ?_⟩
    rintro err rfl
    exact ⟨_, _, _, _, .here _ _ _ _, h2 _ _ _ hs⟩
  | next ctx t toks ps new toks1 ps1 e toks' ps' hs hr ih =>
    have := step_newErrors env o configDir file ctx t toks ps
    rw [hs] at this
    refine ⟨this.trans ih.1 rfl fun hv => .next _ _ _ _ _ _ _ _ _ _ _ hs hv, fun err he => ?_⟩
    obtain ⟨_, _, _, _, hv, h⟩ := ih.2 err he
    exact ⟨_, _, _, _, .next _ _ _ _ _ _ _ _ _ _ _ hs hv, h⟩
  | inside ctx t toks ps stmt comments toks1 ps1 e toks' ps' hs hr ih =>
    have := step_newErrors env o configDir file ctx t toks ps
    rw [hs] at this
    refine ⟨this.trans ih.1 (enterBlockCtx_bothErrors _ _ _).1 fun hv => .inside _ _ _ _ _ _ _ _ _ _ _ _ hs hv, fun err he => ?_⟩
    obtain ⟨_, _, _, _, hv, h⟩ := ih.2 err he
    exact ⟨_, _, _, _, .inside _ _ _ _ _ _ _ _ _ _ _ _ hs hv, h⟩
  | after ctx t toks ps stmt comments toks1 ps1 b toks2 ps2 e toks' ps' hs hr1 hr2 ih =>
    have := step_newErrors env o configDir file ctx t toks ps
    rw [hs] at this
    refine ⟨(this.trans hr1.causes (enterBlockCtx_bothErrors _ _ _).1 fun hv => .inside _ _ _ _ _ _ _ _ _ _ _ _ hs hv).trans ih.1 rfl
      fun hv => .after _ _ _ _ _ _ _ _ _ _ _ _ _ _ _ hs hr1 hv, fun err he => ?_⟩
    obtain ⟨_, _, _, _, hv, h⟩ := ih.2 err he
    exact ⟨_, _, _, _, .after _ _ _ _ _ _ _ _ _ _ _ _ _ _ _ hs hr1 hv, h⟩

/-- The errors of all files. -/
theorem FilesOk.causes {env : Env} {o : ParseOptions} {configDir : Str} {ps ps' : PS} {cs : List Config} (h : FilesOk env o configDir ps cs ps') :
    ∀ pe ∈ ps'.payErrors, pe ∈ ps.payErrors ∨ (∃ ctx t toks ps1, FilesVisits env o configDir ps pe.file ctx t toks ps1 ∧
      RoundError env o configDir pe.file ctx t toks ps1 pe.error) ∧ pe.line = pe.error.line? := by
  induction h with
  | nil => exact fun pe h => Or.inl h
  | ok ps incl rest data ds toks' ps1 cs ps' hi ho hr hf ih =>
    intro pe hpe
    rcases ih pe hpe with h | ⟨⟨_, _, _, _, hv, h⟩, h'⟩
    · rcases hr.causes pe h with h | ⟨⟨c1, t1, k1, p1, hv, h⟩, hfi, h'⟩
      · exact Or.inl h
      · refine Or.inr ⟨⟨c1, t1, k1, p1, ?_⟩, h'⟩
        rw [hfi]
        exact ⟨.here _ _ _ _ _ _ _ _ hi ho hv, h⟩
    · exact Or.inr ⟨⟨_, _, _, _, .ok _ _ _ _ _ _ _ _ _ _ _ _ hi ho hr hv, h⟩, h'⟩
  | bad ps incl rest data e toks' ps1 cs ps' hi ho hr hs hf ih =>
    intro pe hpe
    rcases ih pe hpe with h | ⟨⟨_, _, _, _, hv, h⟩, h'⟩
    · simp only [handleError, List.mem_append, List.mem_singleton] at h
      rcases h with h | rfl
      · rcases hr.causes.1 pe h with h | ⟨⟨c1, t1, k1, p1, hv, h⟩, hfi, h'⟩
        · exact Or.inl h
        · refine Or.inr ⟨⟨c1, t1, k1, p1, ?_⟩, h'⟩
          rw [hfi]
          exact ⟨.here _ _ _ _ _ _ _ _ hi ho hv, h⟩
      · obtain ⟨_, _, _, _, hv, h⟩ := hr.causes.2 _ rfl
        exact Or.inr ⟨⟨_, _, _, _, .here _ _ _ _ _ _ _ _ hi ho hv, h⟩, rfl⟩
    · exact Or.inr ⟨⟨_, _, _, _, .bad _ _ _ _ _ _ _ _ _ _ _ _ hi ho hr hs hv, h⟩, h'⟩

/-! ## The tokens of a round are tokens of the file -/

theorem step_suffix (env : Env) (o : ParseOptions) (configDir file : Str) (ctx : Ctx) (t : Tok) (toks : List Tok) (ps : PS) :
    match step env o configDir file ctx t toks ps with
    | .stop toks' _ => toks' <:+ toks
    | .fail _ toks' _ => toks' <:+ toks
    | .next _ toks' _ => toks' <:+ toks
    | .block _ _ toks' _ => toks' <:+ toks := by
  have hs := step_cases env o configDir file ctx t toks ps
  generalize step env o configDir file ctx t toks ps = s at hs
  have reads : ∀ {args comments : List Str} {term : Tok} {rest : List Tok}, Reads o t toks args comments term rest → rest <:+ toks :=
    fun R => R.suffix.1
  cases hs with
  | tokErr => exact List.suffix_refl _
  | close => exact List.suffix_refl _
  | comment => exact List.suffix_refl _
  | premature => exact List.nil_suffix
  | mapFail _ _ _ _ _ _ R => exact reads R
  | mapBad _ _ _ _ _ _ R => exact (skipBlock_suffix _ _).trans (reads R)
  | mapOk _ _ _ _ _ R => exact reads R
  | ignored _ _ _ _ R => exact (skipBlock_suffix _ _).trans (reads R)
  | rejectFail _ _ _ _ _ R => exact reads R
  | rejectSkip _ _ _ _ _ R => exact (consume_suffix _ _).trans (reads R)
  | rejectStop _ _ _ _ _ R => exact reads R
  | reject _ _ _ _ _ R => exact reads R
  | panic _ _ _ _ R => exact reads R
  | inclFail _ _ _ _ _ _ _ R => exact reads R
  | simple _ _ _ _ _ _ _ R => exact reads R
  | block _ _ _ _ _ _ _ R => exact reads R

theorem RunOk.suffix {env : Env} {o : ParseOptions} {configDir file : Str} {ctx : Ctx} {toks toks' : List Tok} {ps ps' : PS} {ds : List Directive}
    (h : RunOk env o configDir file ctx toks ps ds toks' ps') : toks' <:+ toks := by
  induction h with
  | eof => exact List.suffix_refl _
  | stop ctx t toks ps toks' ps' hs =>
    have := step_suffix env o configDir file ctx t toks ps
    rw [hs] at this
    exact this.trans (List.suffix_cons _ _)
  | next ctx t toks ps new toks1 ps1 ds toks' ps' hs hr ih =>
    have := step_suffix env o configDir file ctx t toks ps
    rw [hs] at this
    exact ih.trans (this.trans (List.suffix_cons _ _))
  | block ctx t toks ps stmt comments toks1 ps1 b toks2 ps2 ds toks' ps' hs hr1 hr2 ih1 ih2 =>
    have := step_suffix env o configDir file ctx t toks ps
    rw [hs] at this
    exact ih2.trans (ih1.trans (this.trans (List.suffix_cons _ _)))

theorem Visits.suffix {env : Env} {o : ParseOptions} {configDir file : Str} {ctx ctx' : Ctx} {toks toks' : List Tok} {ps ps' : PS} {t' : Tok}
    (h : Visits env o configDir file ctx toks ps ctx' t' toks' ps') : t' :: toks' <:+ toks := by
  induction h with
  | here => exact List.suffix_refl _
  | next ctx t toks ps new toks1 ps1 ctx' t' toks' ps' hs hv ih =>
    have := step_suffix env o configDir file ctx t toks ps
    rw [hs] at this
    exact ih.trans (this.trans (List.suffix_cons _ _))
  | inside ctx t toks ps stmt comments toks1 ps1 ctx' t' toks' ps' hs hv ih =>
    have := step_suffix env o configDir file ctx t toks ps
    rw [hs] at this
    exact ih.trans (this.trans (List.suffix_cons _ _))
  | after ctx t toks ps stmt comments toks1 ps1 b toks2 ps2 ctx' t' toks' ps' hs hr hv ih =>
    have := step_suffix env o configDir file ctx t toks ps
    rw [hs] at this
    exact ih.trans (hr.suffix.trans (this.trans (List.suffix_cons _ _)))

theorem FilesVisits.suffix {env : Env} {o : ParseOptions} {configDir : Str} {ps ps1 : PS} {file : Str} {ctx : Ctx} {t : Tok} {toks : List Tok}
    (h : FilesVisits env o configDir ps file ctx t toks ps1) : ∃ k data, env.openFile k file = .ok data ∧ t :: toks <:+ fileToks o data := by
  induction h with
  | here ps incl rest data ctx t toks ps1 hi ho hv => exact ⟨_, _, ho, hv.suffix⟩
  | ok _ _ _ _ _ _ _ _ _ _ _ _ _ _ _ _ ih => exact ih
  | bad _ _ _ _ _ _ _ _ _ _ _ _ _ _ _ _ _ ih => exact ih

/-! ## Rounds and causes -/

theorem readArgs_none {pc : Bool} {toks : List Tok} : ∀ {args comments : List Str}, readArgs pc args comments toks = none → ∃ as texts, Words toks as texts := by
  induction toks with
  | nil => intros; exact ⟨_, _, .nil⟩
  | cons t toks ih =>
    intro args comments h
    unfold readArgs at h
    by_cases ht : t.isTerm = true
    · rw [if_pos ht] at h; cases h
    · rw [if_neg ht] at h
      cases hc : t.isCommentTok with
      | false =>
        rw [hc] at h
        obtain ⟨as, texts, h⟩ := ih h
        exact ⟨_, _, .word (wordTok_iff.mpr ⟨by simpa using ht, hc⟩) h⟩
      | true =>
        obtain ⟨text, htext⟩ := isCommentTok_iff.mp hc
        rw [hc] at h
        cases pc with
        | true => obtain ⟨as, texts, h⟩ := ih h; exact ⟨_, _, .comment htext h⟩
        | false => obtain ⟨as, texts, h⟩ := ih h; exact ⟨_, _, .comment htext h⟩

theorem joinStr_headWords (ws : List Str) : joinStr c!" " ws = headWords ws := by
  induction ws with
  | nil => rfl
  | cons w ws ih =>
    cases ws with
    | nil => rfl
    | cons v ws => rw [joinStr, ih]; show w ++ [' '] ++ headWords (v :: ws) = w ++ ' ' :: headWords (v :: ws); simp

theorem baseStmt_string (o : ParseOptions) (file : Str) (t : Tok) (args : List Str) : (baseStmt o file t args).string = t.value ++ ' ' :: headWords args := by
  unfold Directive.string
  rw [if_pos (by rfl), ← joinStr_headWords]
  show t.value ++ [' '] ++ _ = _
  simp [baseStmt]

theorem getLastBlock_innermost (ctx : List Str) : getLastBlock ctx = innermost ctx := by
  unfold getLastBlock innermost
  cases ctx.getLast? <;> rfl

/-- The reason that what an include directive stands for cannot be had. -/
def missingFor (env : Env) (o : ParseOptions) (configDir file : Str) (line : Int) (args : List Str) (what : Str) : Prop :=
  o.singleFile = false ∧
    match args with
    | [] => what = c!"invalid number of arguments in \"include\" directive in " ++ file ++ c!":" ++ decimal line
    | a :: _ => hasMagic (resolve env configDir a) = false ∧ ∃ k e, env.openFile k (resolve env configDir a) = .error e ∧ what = e.error

/-- The reason that a pattern is malformed. -/
def badPatternFor (env : Env) (o : ParseOptions) (configDir : Str) (a : Str) (e : GoErr) : Prop :=
  o.singleFile = false ∧ hasMagic (resolve env configDir a) = true ∧ ∃ k, env.glob k (resolve env configDir a) = .error e

theorem endTok_iff {t : Tok} : EndTok t ↔ t.isTerm = true := by rw [isTerm_mark]; unfold EndTok; tauto

theorem RoundError.cause {env : Env} {o : ParseOptions} {configDir file : Str} {ctx : Ctx} {t : Tok} {toks all : List Tok} {ps : PS} {e : GoErr}
    (h : RoundError env o configDir file ctx t toks ps e) (hs : t :: toks <:+ all) :
    Cause (rulesOf o) (missingFor env o configDir file) (badPatternFor env o configDir) file all e := by
  obtain ⟨pre, rfl⟩ := hs
  have head : ∀ {args comments : List Str} {term : Tok} {rest : List Tok}, Reads o t toks args comments term rest → HeadTok t := fun R =>
    ⟨R.noErr, is_mark_false.mp R.notClose, fun text ht => by
      have := isCommentTok_iff.mpr ⟨text, ht⟩
      rw [R.notComment] at this; cases this⟩
  have words : ∀ {args comments : List Str} {term : Tok} {rest : List Tok}, Reads o t toks args comments term rest →
      ∃ mid texts, toks = mid ++ term :: rest ∧ Words mid args texts ∧ EndTok term := by
    intro args comments term rest R
    obtain ⟨mid, as, texts, h1, h2, h3, -, h5, -⟩ := readArgs_words R.read
    rw [List.nil_append] at h3
    subst h3
    exact ⟨mid, texts, h1, h2, endTok_iff.mpr h5⟩
  cases h with
  | token e he =>
    cases e with
    | parse e => exact .lexer rfl he rfl rfl rfl
    | other m => exact .reader rfl he rfl rfl rfl
  | premature h1 h2 h3 h4 =>
    obtain ⟨as, texts, hw⟩ := readArgs_none h4
    exact .premature rfl ⟨h1, is_mark_false.mp h2, fun text ht => by rw [isCommentTok_iff.mpr ⟨text, ht⟩] at h3; cases h3⟩ hw rfl rfl rfl
  | map args comments term rest m err R hm ha =>
    obtain ⟨mid, texts, rfl, hw, hz⟩ := words R
    obtain ⟨f1, f2, f3, f4, -⟩ := C27_error_fields ha
    have hi := (mapCtx_eq _ _).mp hm
    refine .wrong rfl (head R) hw hz (ctx := ctx.vals) (.param hi ?_) (by rw [f3, baseStmt_string]) ?_ f2 f1
    · intro hc
      rw [(C27_decision file (baseStmt o file t args) term.value m hi.2).mpr hc] at ha
      cases ha
    · rw [f4, innermost, hi.1]; rfl
  | rejected args comments term rest err R hm hi ha =>
    obtain ⟨mid, texts, rfl, hw, hz⟩ := words R
    obtain ⟨f1, f2, f3, -, f4⟩ := C24_error_fields ha
    refine .wrong rfl (head R) hw hz (ctx := ctx.vals) (.stmt (mapCtx_none.mp hm) (contains_false_iff.mp hi) ?_) (by rw [f3, baseStmt_string]) ?_ f2 f1
    · intro hc
      rw [(analyze_rules file (baseStmt o file t args) term.value ctx.vals o).mpr hc] at ha
      cases ha
    · exact f4.trans (getLastBlock_innermost _)
  | noArgs comments term rest R hm hi ha hsf hv =>
    obtain ⟨mid, texts, rfl, hw, hz⟩ := words R
    refine .wrong rfl (head R) hw hz (ctx := ctx.vals) (.incl (mapCtx_none.mp hm) (contains_false_iff.mp hi)
      ((analyze_rules file (baseStmt o file t []) term.value ctx.vals o).mp ha) hv ⟨hsf, ?_⟩) (baseStmt_string ..) (getLastBlock_innermost _) rfl rfl
    show c!"invalid number of arguments in \"" ++ t.value ++ _ ++ _ ++ _ ++ _ = _
    rw [hv]; rfl
  | glob a as comments term rest e R hm hi ha hsf hv hg he =>
    obtain ⟨mid, texts, rfl, hw, hz⟩ := words R
    exact .pattern rfl (head R) hw hz (mapCtx_none.mp hm) (contains_false_iff.mp hi)
      ((analyze_rules file (baseStmt o file t (a :: as)) term.value ctx.vals o).mp ha) hv ⟨hsf, hg, _, he⟩
  | openFile a as comments term rest e R hm hi ha hsf hv hg he =>
    obtain ⟨mid, texts, rfl, hw, hz⟩ := words R
    exact .wrong rfl (head R) hw hz (ctx := ctx.vals) (.incl (mapCtx_none.mp hm) (contains_false_iff.mp hi)
      ((analyze_rules file (baseStmt o file t (a :: as)) term.value ctx.vals o).mp ha) hv ⟨hsf, hg, _, _, he, rfl⟩) (baseStmt_string ..)
      (getLastBlock_innermost _) rfl rfl

/-! ## The order of the errors of a file -/

/-- The line that a token tells: that of its error, if it has one with a line, or its own. -/
def lineTold (t : Tok) : Int := (t.error.bind (·.line?)).getD t.line

theorem lineTold_none {t : Tok} (h : t.error = none) : lineTold t = t.line := by unfold lineTold; rw [h]; rfl

/-- The tokens are in the order of the lines they tell. -/
def InOrder (toks : List Tok) : Prop := toks.Pairwise (fun a b => lineTold a ≤ lineTold b)

theorem InOrder.suffix {toks toks' : List Tok} (h : InOrder toks) (hs : toks' <:+ toks) : InOrder toks' := List.Pairwise.sublist hs.sublist h

/-- What the errors added by a part of a run look like: their lines, in order, are those of the tokens `used`. -/
def Lined (used : List Tok) (before after : List ConfigError) : Prop :=
  ∃ (es : List ConfigError) (ls : List Int), after = before ++ es ∧ es.map (·.line) = ls.map some ∧ ls.Pairwise (· ≤ ·) ∧ ∀ l ∈ ls, ∃ t ∈ used, lineTold t = l

theorem Lined.refl (used : List Tok) (es : List ConfigError) : Lined used es es := ⟨[], [], by simp, rfl, .nil, by simp⟩

theorem Lined.trans {u1 u2 : List Tok} {a b c : List ConfigError} (h1 : Lined u1 a b) (h2 : Lined u2 b c) (ho : InOrder (u1 ++ u2)) :
    Lined (u1 ++ u2) a c := by
  obtain ⟨e1, l1, rfl, m1, p1, q1⟩ := h1
  obtain ⟨e2, l2, rfl, m2, p2, q2⟩ := h2
  refine ⟨e1 ++ e2, l1 ++ l2, by simp, by simp [m1, m2], List.pairwise_append.mpr ⟨p1, p2, ?_⟩, ?_⟩
  · intro x hx y hy
    obtain ⟨t, ht, rfl⟩ := q1 x hx
    obtain ⟨u, hu, rfl⟩ := q2 y hy
    exact (List.pairwise_append.mp ho).2.2 t ht u hu
  · intro l hl
    rcases List.mem_append.mp hl with h | h
    · obtain ⟨t, ht, h⟩ := q1 l h; exact ⟨t, List.mem_append_left _ ht, h⟩
    · obtain ⟨t, ht, h⟩ := q2 l h; exact ⟨t, List.mem_append_right _ ht, h⟩

theorem Lined.mono {u1 u2 : List Tok} {a b : List ConfigError} (h : Lined u1 a b) (hs : u1 ⊆ u2) : Lined u2 a b := by
  obtain ⟨e1, l1, h1, m1, p1, q1⟩ := h
  refine ⟨e1, l1, h1, m1, p1, fun l hl => ?_⟩
  obtain ⟨t, ht, h⟩ := q1 l hl
  exact ⟨t, hs ht, h⟩

theorem doInclude_lined {env : Env} {o : ParseOptions} {configDir file : Str} {ctx : Ctx} {stmt : Directive} {ps ps' : PS} {r : Res Directive}
    (h : doInclude env o configDir file ctx stmt ps = (r, ps')) {t : Tok} (hl : stmt.line = lineTold t) : Lined [t] ps.cfgErrors ps'.cfgErrors := by
  have hr := doInclude_inclR env o configDir file ctx stmt ps
  rw [h] at hr
  cases hr with
  | other => exact .refl _ _
  | noArgs => exact .refl _ _
  | globErr => exact .refl _ _
  | globOk a as names => rw [(addIncludes_errors file ctx _ stmt _).2]; exact .refl _ _
  | openBad a as e => exact ⟨_, [stmt.line], rfl, rfl, by simp, by simp [hl]⟩
  | openFail => exact .refl _ _
  | openOk => rw [(addIncludes_errors file ctx _ stmt _).2]; exact .refl _ _

/-- A round adds at most an error on the line of its token; if it fails, the error is on this line or a later one, or on none. -/
theorem step_lined (env : Env) (o : ParseOptions) (configDir file : Str) (ctx : Ctx) (t : Tok) (toks : List Tok) (ps : PS)
    (hg : ∀ k a e, env.glob k a = .error e → e.line? = none) :
    Lined [t] ps.cfgErrors (step env o configDir file ctx t toks ps).ps.cfgErrors ∧
    ∀ e toks' ps', step env o configDir file ctx t toks ps = .fail (some e) toks' ps' → ∀ l, e.line? = some l → lineTold t ≤ l := by
  cases he : t.error with
  | some e =>
    have hs : step env o configDir file ctx t toks ps = .fail (some (tokenError file ctx.vals t e)) toks ps := by unfold step; rw [he]
    rw [hs]
    refine ⟨.refl _ _, fun e' _ _ h' l hl => ?_⟩
    cases h'
    unfold lineTold
    rw [he]
    cases e with
    | parse e =>
      have hl' : e.line = some l := hl
      show ((GoErr.parse e).line?).getD _ ≤ l
      rw [show (GoErr.parse e).line? = some l from hl']
      exact Int.le_refl _
    | other m =>
      have hl' : some t.line = some l := hl
      cases hl'
      exact Int.le_refl _
  | none =>
  rw [lineTold_none he]
  have added : ∀ {err : ParseError}, err.line = some t.line → Lined [t] ps.cfgErrors (handleError o file ps (.parse err)).cfgErrors := by
    intro err h
    exact ⟨_, [t.line], rfl, by simp [GoErr.line?, h], by simp, by simp [lineTold_none he]⟩
  have same : ∀ {err : ParseError}, err.line = some t.line → ∀ l, (GoErr.parse err).line? = some l → t.line ≤ l := by
    intro err h l hl
    have : some t.line = some l := h.symm.trans hl
    cases this; exact Int.le_refl _
  have pline : ∀ {args : List Str} {stmt : Directive}, prepIf (baseStmt o file t args) = some stmt → stmt.line = t.line := by
    intro args stmt h
    rw [prepIf_some h]; rfl
  have hs := step_cases env o configDir file ctx t toks ps
  have hc := (step_causes env o configDir file ctx t toks ps).2
  generalize step env o configDir file ctx t toks ps = s at hs hc
  have mapLine : ∀ {args : List Str} {term m : Str} {err : ParseError}, analyzeMapBody file (baseStmt o file t args) term m = some err → err.line = some t.line :=
    fun h => (C27_error_fields h).2.1
  have line : ∀ {args : List Str} {term : Str} {err : ParseError}, analyze file (baseStmt o file t args) term ctx.vals o = some err → err.line = some t.line :=
    fun h => (C24_error_fields h).2.1
  cases hs with
  | tokErr e h => rw [he] at h; cases h
  | close => exact ⟨.refl _ _, fun _ _ _ h => by cases h⟩
  | comment => exact ⟨.refl _ _, fun _ _ _ h => by cases h⟩
  | premature h1 h2 h3 h4 => exact ⟨.refl _ _, fun _ _ _ h' => by cases h'; exact same rfl⟩
  | mapFail args comments term rest m err R h1 h2 h3 => exact ⟨.refl _ _, fun _ _ _ h' => by cases h'; exact same (mapLine h2)⟩
  | mapBad args comments term rest m err R h1 h2 h3 => exact ⟨added (mapLine h2), fun _ _ _ h => by cases h⟩
  | mapOk => exact ⟨.refl _ _, fun _ _ _ h => by cases h⟩
  | ignored => exact ⟨.refl _ _, fun _ _ _ h => by cases h⟩
  | rejectFail args comments term rest err R h1 h2 h3 h4 => exact ⟨.refl _ _, fun _ _ _ h' => by cases h'; exact same (line h3)⟩
  | rejectSkip args comments term rest err R h1 h2 h3 => exact ⟨added (line h3), fun _ _ _ h => by cases h⟩
  | rejectStop args comments term rest err R h1 h2 h3 => exact ⟨added (line h3), fun _ _ _ h => by cases h⟩
  | reject args comments term rest err R h1 h2 h3 => exact ⟨added (line h3), fun _ _ _ h => by cases h⟩
  | panic => exact ⟨.refl _ _, fun _ _ _ h => by cases h⟩
  | inclFail args comments term rest stmt e ps' R h1 h2 h3 h4 h5 =>
    refine ⟨doInclude_lined h5 ((pline h4).trans (lineTold_none he).symm), fun _ _ _ h => ?_⟩
    cases h
    have hr := doInclude_inclR env o configDir file ctx stmt ps
    rw [h5] at hr
    cases hr with
    | noArgs => exact same (congrArg some (pline h4))
    | openFail => exact same (congrArg some (pline h4))
    | globErr a as e g1 g2 g3 g4 => intro l hl; rw [hg _ _ _ g4] at hl; cases hl
  | simple args comments term rest stmt stmt' ps' R h1 h2 h3 h4 h5 h6 => exact ⟨doInclude_lined h5 ((pline h4).trans (lineTold_none he).symm), fun _ _ _ h => by cases h⟩
  | block args comments term rest stmt stmt' ps' R h1 h2 h3 h4 h5 h6 => exact ⟨doInclude_lined h5 ((pline h4).trans (lineTold_none he).symm), fun _ _ _ h => by cases h⟩

theorem RunOk.lined {env : Env} {o : ParseOptions} {configDir file : Str} {ctx : Ctx} {toks toks' : List Tok} {ps ps' : PS} {ds : List Directive}
    (hg : ∀ k a e, env.glob k a = .error e → e.line? = none)
    (h : RunOk env o configDir file ctx toks ps ds toks' ps') : InOrder toks → ∃ used, toks = used ++ toks' ∧ Lined used ps.cfgErrors ps'.cfgErrors := by
  induction h with
  | eof => intro _; exact ⟨[], rfl, .refl _ _⟩
  | stop ctx t toks ps toks' ps' hs =>
    intro ho
    have h1 := step_suffix env o configDir file ctx t toks ps
    have h2 := (step_lined env o configDir file ctx t toks ps hg).1
    rw [hs] at h1 h2
    obtain ⟨u, rfl⟩ := h1
    exact ⟨t :: u, rfl, h2.mono (by simp)⟩
  | next ctx t toks ps new toks1 ps1 ds toks' ps' hs hr ih =>
    intro ho
    have h1 := step_suffix env o configDir file ctx t toks ps
    have h2 := (step_lined env o configDir file ctx t toks ps hg).1
    rw [hs] at h1 h2
    obtain ⟨u, rfl⟩ := h1
    obtain ⟨v, rfl, h3⟩ := ih (ho.suffix ⟨t :: u, rfl⟩)
    refine ⟨t :: u ++ v, by simp, (h2.mono (u2 := t :: u) (by simp)).trans h3 ?_⟩
    exact List.Pairwise.sublist (by rw [List.cons_append, ← List.append_assoc]; simp) ho
  | block ctx t toks ps stmt comments toks1 ps1 b toks2 ps2 ds toks' ps' hs hr1 hr2 ih1 ih2 =>
    intro ho
    have h1 := step_suffix env o configDir file ctx t toks ps
    have h2 := (step_lined env o configDir file ctx t toks ps hg).1
    rw [hs] at h1 h2
    obtain ⟨u, rfl⟩ := h1
    obtain ⟨v, rfl, h3⟩ := ih1 (ho.suffix ⟨t :: u, rfl⟩)
    obtain ⟨w, rfl, h4⟩ := ih2 (ho.suffix ⟨t :: u ++ v, by simp⟩)
    rw [(enterBlockCtx_bothErrors _ _ _).2] at h3
    refine ⟨t :: u ++ v ++ w, by simp, ((h2.mono (u2 := t :: u) (by simp)).trans h3 ?_).trans h4 ?_⟩
    · exact List.Pairwise.sublist (by rw [List.cons_append, ← List.append_assoc]; simp) ho
    · exact List.Pairwise.sublist (by simp only [List.cons_append, List.append_assoc, ← List.append_assoc]; simp) ho

theorem RunFail.lined {env : Env} {o : ParseOptions} {configDir file : Str} {ctx : Ctx} {toks toks' : List Tok} {ps ps' : PS} {e : Option GoErr}
    (hg : ∀ k a e, env.glob k a = .error e → e.line? = none)
    (h : RunFail env o configDir file ctx toks ps e toks' ps') : InOrder toks → ∃ used t post, toks = used ++ t :: post ∧
      Lined (used ++ [t]) ps.cfgErrors ps'.cfgErrors ∧ ∀ err l, e = some err → err.line? = some l → lineTold t ≤ l := by
  induction h with
  | fail ctx t toks ps e toks' ps' hs =>
    intro ho
    obtain ⟨h2, h3⟩ := step_lined env o configDir file ctx t toks ps hg
    rw [hs] at h2
    refine ⟨[], t, toks, rfl, h2, ?_⟩
    rintro err l rfl hl
    exact h3 _ _ _ hs l hl
  | next ctx t toks ps new toks1 ps1 e toks' ps' hs hr ih =>
    intro ho
    have h1 := step_suffix env o configDir file ctx t toks ps
    have h2 := (step_lined env o configDir file ctx t toks ps hg).1
    rw [hs] at h1 h2
    obtain ⟨u, rfl⟩ := h1
    obtain ⟨v, t', post, rfl, h3, h4⟩ := ih (ho.suffix ⟨t :: u, rfl⟩)
    refine ⟨t :: u ++ v, t', post, by simp, ?_, h4⟩
    rw [List.append_assoc]
    refine (h2.mono (u2 := t :: u) (by simp)).trans h3 ?_
    exact List.Pairwise.sublist (by simp) ho
  | inside ctx t toks ps stmt comments toks1 ps1 e toks' ps' hs hr ih =>
    intro ho
    have h1 := step_suffix env o configDir file ctx t toks ps
    have h2 := (step_lined env o configDir file ctx t toks ps hg).1
    rw [hs] at h1 h2
    obtain ⟨u, rfl⟩ := h1
    obtain ⟨v, t', post, rfl, h3, h4⟩ := ih (ho.suffix ⟨t :: u, rfl⟩)
    rw [(enterBlockCtx_bothErrors _ _ _).2] at h3
    refine ⟨t :: u ++ v, t', post, by simp, ?_, h4⟩
    rw [List.append_assoc]
    refine (h2.mono (u2 := t :: u) (by simp)).trans h3 ?_
    exact List.Pairwise.sublist (by simp) ho
  | after ctx t toks ps stmt comments toks1 ps1 b toks2 ps2 e toks' ps' hs hr1 hr2 ih =>
    intro ho
    have h1 := step_suffix env o configDir file ctx t toks ps
    have h2 := (step_lined env o configDir file ctx t toks ps hg).1
    rw [hs] at h1 h2
    obtain ⟨u, rfl⟩ := h1
    obtain ⟨w, rfl, h5⟩ := hr1.lined hg (ho.suffix ⟨t :: u, rfl⟩)
    obtain ⟨v, t', post, rfl, h3, h4⟩ := ih (ho.suffix ⟨t :: u ++ w, by simp⟩)
    rw [(enterBlockCtx_bothErrors _ _ _).2] at h5
    refine ⟨t :: u ++ w ++ v, t', post, by simp, ?_, h4⟩
    rw [List.append_assoc]
    refine ((h2.mono (u2 := t :: u) (by simp)).trans h5 ?_).trans h3 ?_
    · exact List.Pairwise.sublist (by rw [List.cons_append, ← List.append_assoc]; simp) ho
    · exact List.Pairwise.sublist (by simp) ho

/-- The errors of each file are in the order of their lines. -/
theorem FilesOk.lined {env : Env} {o : ParseOptions} {configDir : Str} {ps ps' : PS} {cs : List Config}
    (hg : ∀ k a e, env.glob k a = .error e → e.line? = none) (ho : ∀ k f data, env.openFile k f = .ok data → InOrder (fileToks o data))
    (h : FilesOk env o configDir ps cs ps') : ∀ c ∈ cs, (c.errors.filterMap (·.line)).Pairwise (· ≤ ·) := by
  have lines : ∀ {es : List ConfigError} {ls : List Int}, es.map (·.line) = ls.map some → es.filterMap (·.line) = ls := by
    intro es
    induction es with
    | nil => intro ls h; cases ls <;> simp_all
    | cons e es ih =>
      intro ls h
      cases ls with
      | nil => cases h
      | cons l ls =>
        simp only [List.map_cons, List.cons.injEq] at h
        simp [h.1, ih h.2]
  induction h with
  | nil => intro c hc; cases hc
  | ok ps incl rest data ds toks' ps1 cs ps' hi hop hr hf ih =>
    intro c hc
    rcases List.mem_cons.mp hc with rfl | hc
    · obtain ⟨used, -, es, ls, h1, h2, h3, -⟩ := hr.lined hg (ho _ _ _ hop)
      show (ps1.cfgErrors.filterMap _).Pairwise _
      rw [h1]
      simp only [startFile, List.nil_append]
      rw [lines h2]; exact h3
    · exact ih c hc
  | bad ps incl rest data e toks' ps1 cs ps' hi hop hr hs hf ih =>
    intro c hc
    rcases List.mem_cons.mp hc with rfl | hc
    · obtain ⟨used, t, post, h0, ⟨es, ls, h1, h2, h3, h4⟩, h5⟩ := hr.lined hg (ho _ _ _ hop)
      show ((ps1.cfgErrors ++ [({ line := e.line?, error := e } : ConfigError)]).filterMap _).Pairwise _
      rw [h1]
      simp only [startFile, List.nil_append, List.filterMap_append]
      rw [lines h2]
      cases hl : e.line? with
      | none => simpa using h3
      | some l =>
        simp only [List.filterMap_cons, List.filterMap_nil]
        refine List.pairwise_append.mpr ⟨h3, by simp, ?_⟩
        intro x hx y hy
        obtain rfl := List.mem_singleton.mp hy
        obtain ⟨u, hu, rfl⟩ := h4 x hx
        refine Int.le_trans ?_ (h5 e y rfl hl)
        rcases List.mem_append.mp hu with hu | hu
        · have := ho _ _ _ hop
          rw [h0] at this
          exact (List.pairwise_append.mp this).2.2 u hu t (List.mem_cons_self ..)
        · rw [List.mem_singleton.mp hu]
    · exact ih c hc

/-! ## The tokens of a text are in order -/

theorem specToks_late {items : List Item} (hw : WF items) : ∀ {line start depth dup g}, start ≤ line →
    ∀ t ∈ specToks line start depth dup g items, ∀ e l, t.error = some e → e.line? = some l → t.line ≤ l := by
  have nn : ∀ s, 0 ≤ nls s := fun s => by simp [nls]
  induction items with
  | nil =>
    intro line start depth dup g h t ht e l he hl
    simp only [specToks] at ht
    split at ht
    · rw [List.mem_singleton.mp ht] at he ⊢
      cases he; cases hl; exact h
    · cases ht
  | cons i rest ih =>
    intro line start depth dup g h t ht e l he hl
    cases i with
    | space c =>
      simp only [specToks] at ht
      exact ih hw.2.2 (by have := nn [c]; omega) t ht e l he hl
    | word us =>
      have hwl : wordLine line us ≤ line + nls (textOf us) := by
        unfold wordLine
        split
        · rename_i us'
          have := nn (textOf us')
          have h2 : nls (U.text (.esc '\n')) = 1 := by decide
          rw [textOf_cons, nls_append, h2]; omega
        · have := nn (textOf us); omega
      simp only [specToks] at ht
      rcases List.mem_cons.mp ht with rfl | ht
      · cases he
      · exact ih hw.2.2.2 hwl t ht e l he hl
    | quoted qc us closed =>
      simp only [specToks] at ht
      rcases List.mem_append.mp ht with ht | ht
      · split at ht
        · rw [List.mem_singleton.mp ht] at he; cases he
        · cases ht
      · exact ih hw.2.2.2 (by have := nn (textOf us); omega) t ht e l he hl
    | comment us en =>
      simp only [specToks] at ht
      rcases List.mem_cons.mp ht with rfl | ht
      · cases he
      · exact ih hw.2.2 (by have := nn en.text; omega) t ht e l he hl
    | special c =>
      have hst : (if g then start else line) ≤ line := by split <;> omega
      simp only [specToks] at ht
      split at ht
      · rw [List.mem_singleton.mp ht] at he ⊢
        cases he; cases hl; exact hst
      · split at ht
        · rw [List.mem_singleton.mp ht] at he ⊢
          cases he; cases hl; exact hst
        · rcases List.mem_cons.mp ht with rfl | ht
          · cases he
          · exact ih hw.2 hst t ht e l he hl

theorem lex_late (s : Str) : ∀ t ∈ lex s, ∀ e l, t.error = some e → e.line? = some l → t.line ≤ l := by
  obtain ⟨items, d, e, w, hd, h⟩ := lex_cover s
  rw [h]
  exact specToks_late w (Int.le_refl _)

theorem lex_inOrder (s : Str) : InOrder (lex s) := by
  have ho := (C05_lines_ordered s).1
  have late : ∀ t ∈ lex s, t.line ≤ lineTold t := by
    intro t ht
    unfold lineTold
    cases he : t.error with
    | none => exact Int.le_refl _
    | some e =>
      show _ ≤ (e.line?).getD _
      cases hl : e.line? with
      | none => exact Int.le_refl _
      | some l => exact lex_late s t ht e l he hl
  unfold InOrder
  rcases C07_errors s with h | ⟨ts, t, e, h1, h2, -⟩
  · refine ho.imp_of_mem fun {a b} ha hb hab => ?_
    rw [lineTold_none (h a ha), lineTold_none (h b hb)]
    exact hab
  · rw [h1] at ho ⊢
    obtain ⟨p1, -, p3⟩ := List.pairwise_append.mp ho
    refine List.pairwise_append.mpr ⟨p1.imp_of_mem fun {a b} ha hb hab => ?_, by simp, fun a ha b hb => ?_⟩
    · rw [lineTold_none (h2 a ha), lineTold_none (h2 b hb)]
      exact hab
    · rw [lineTold_none (h2 a ha)]
      exact Int.le_trans (p3 a ha b hb) (late b (by rw [h1]; exact List.mem_append_right _ hb))

end Verif
