import Verif.Proofs.ParseTop
/-!
# The statements a run comes across
-/
namespace Verif
open Spec

/-- The run that starts at the first three arguments comes to a round of the loop at the last four. -/
inductive Visits (env : Env) (o : ParseOptions) (configDir file : Str) : Ctx → List Tok → PS → Ctx → Tok → List Tok → PS → Prop where
  | here (ctx t toks ps) : Visits env o configDir file ctx (t :: toks) ps ctx t toks ps
  | next (ctx t toks ps new toks1 ps1 ctx' t' toks' ps') : step env o configDir file ctx t toks ps = .next new toks1 ps1 →
      Visits env o configDir file ctx toks1 ps1 ctx' t' toks' ps' →
      Visits env o configDir file ctx (t :: toks) ps ctx' t' toks' ps'
  | inside (ctx t toks ps stmt comments toks1 ps1 ctx' t' toks' ps') :
      step env o configDir file ctx t toks ps = .block stmt comments toks1 ps1 →
      Visits env o configDir file (enterBlockCtx stmt ctx ps1).1 toks1 (enterBlockCtx stmt ctx ps1).2 ctx' t' toks' ps' →
      Visits env o configDir file ctx (t :: toks) ps ctx' t' toks' ps'
  | after (ctx t toks ps stmt comments toks1 ps1 b toks2 ps2 ctx' t' toks' ps') :
      step env o configDir file ctx t toks ps = .block stmt comments toks1 ps1 →
      RunOk env o configDir file (enterBlockCtx stmt ctx ps1).1 toks1 (enterBlockCtx stmt ctx ps1).2 b toks2 ps2 →
      Visits env o configDir file ctx toks2 ps2 ctx' t' toks' ps' →
      Visits env o configDir file ctx (t :: toks) ps ctx' t' toks' ps'

/-- The worklist loop comes to a round of the loop for a file. -/
inductive FilesVisits (env : Env) (o : ParseOptions) (configDir : Str) : PS → Str → Ctx → Tok → List Tok → PS → Prop where
  | here (ps incl rest data ctx t toks ps1) : ps.includes = incl :: rest → env.openFile ps.opens incl.path = .ok data →
      Visits env o configDir incl.path incl.ctx (fileToks o data) (startFile ps rest) ctx t toks ps1 →
      FilesVisits env o configDir ps incl.path ctx t toks ps1
  | ok (ps incl rest data ds toks' ps1 file ctx t toks ps2) : ps.includes = incl :: rest → env.openFile ps.opens incl.path = .ok data →
      RunOk env o configDir incl.path incl.ctx (fileToks o data) (startFile ps rest) ds toks' ps1 →
      FilesVisits env o configDir ps1 file ctx t toks ps2 → FilesVisits env o configDir ps file ctx t toks ps2
  | bad (ps incl rest data e toks' ps1 file ctx t toks ps2) : ps.includes = incl :: rest → env.openFile ps.opens incl.path = .ok data →
      RunFail env o configDir incl.path incl.ctx (fileToks o data) (startFile ps rest) (some e) toks' ps1 →
      o.stopParsingOnError = false →
      FilesVisits env o configDir (handleError o incl.path ps1 e) file ctx t toks ps2 → FilesVisits env o configDir ps file ctx t toks ps2

/-- Errors are only added. -/
theorem payErrors_rel (o : ParseOptions) (file : Str) : StateRel o file (fun a b => a.payErrors <+: b.payErrors) where
  refl ps := List.prefix_rfl
  trans := List.IsPrefix.trans
  err ps e := List.prefix_append _ _
  opens ps := List.prefix_rfl
  globs ps := List.prefix_rfl
  add ctx stmt ps f := by
    unfold addInclude
    cases ps.included.lookup f <;> exact List.prefix_rfl
  enter stmt ctx ps := by
    unfold enterBlockCtx
    split
    · exact List.prefix_rfl
    · split <;> exact List.prefix_rfl

theorem RunOk.det {env : Env} {o : ParseOptions} {configDir file : Str} {ctx : Ctx} {toks : List Tok} {ps : PS}
    {ds ds' : List Directive} {toks1 toks2 : List Tok} {ps1 ps2 : PS} (h1 : RunOk env o configDir file ctx toks ps ds toks1 ps1)
    (h2 : RunOk env o configDir file ctx toks ps ds' toks2 ps2) : ds = ds' ∧ toks1 = toks2 ∧ ps1 = ps2 := by
  have e1 := h1.parse_eq (toks.length + 1) [] (by omega)
  have e2 := h2.parse_eq (toks.length + 1) [] (by omega)
  rw [e1] at e2
  simp only [List.nil_append, Prod.mk.injEq, Res.ok.injEq] at e2
  exact e2

theorem RunFail.det {env : Env} {o : ParseOptions} {configDir file : Str} {ctx : Ctx} {toks : List Tok} {ps : PS}
    {e e' : Option GoErr} {toks1 toks2 : List Tok} {ps1 ps2 : PS} (h1 : RunFail env o configDir file ctx toks ps e toks1 ps1)
    (h2 : RunFail env o configDir file ctx toks ps e' toks2 ps2) : e = e' ∧ toks1 = toks2 ∧ ps1 = ps2 := by
  have e1 := h1.parse_eq (toks.length + 1) [] (by omega)
  have e2 := h2.parse_eq (toks.length + 1) [] (by omega)
  rw [e1] at e2
  simp only [Prod.mk.injEq] at e2
  refine ⟨?_, e2.2⟩
  have := e2.1
  cases e <;> cases e' <;> simp_all [failRes]

theorem RunOk.not_fail {env : Env} {o : ParseOptions} {configDir file : Str} {ctx : Ctx} {toks : List Tok} {ps : PS}
    {ds : List Directive} {e : Option GoErr} {toks1 toks2 : List Tok} {ps1 ps2 : PS}
    (h1 : RunOk env o configDir file ctx toks ps ds toks1 ps1) (h2 : RunFail env o configDir file ctx toks ps e toks2 ps2) : False := by
  have e1 := h1.parse_eq (toks.length + 1) [] (by omega)
  have e2 := h2.parse_eq (toks.length + 1) [] (by omega)
  rw [e1] at e2
  simp only [Prod.mk.injEq] at e2
  have := e2.1
  cases e <;> simp_all [failRes]

/-- A round of a successful run does not fail, and its errors are kept. -/
theorem RunOk.visits {env : Env} {o : ParseOptions} {configDir file : Str} {ctx ctx' : Ctx} {toks toks' : List Tok} {ps ps' : PS} {t' : Tok}
    (hv : Visits env o configDir file ctx toks ps ctx' t' toks' ps') :
    ∀ {ds toksE psE}, RunOk env o configDir file ctx toks ps ds toksE psE →
    (∀ e toks2 ps2, step env o configDir file ctx' t' toks' ps' ≠ .fail e toks2 ps2) ∧
    (step env o configDir file ctx' t' toks' ps').ps.payErrors <+: psE.payErrors := by
  induction hv with
  | here ctx t toks ps =>
    intro ds toksE psE hr
    cases hr with
    | stop _ _ _ _ _ _ hs => rw [hs]; exact ⟨fun e t p h => (by cases h), List.prefix_rfl⟩
    | next _ _ _ _ new toks1 ps1 ds _ _ hs hr => rw [hs]; exact ⟨fun e t p h => (by cases h), (payErrors_rel o file).runOk hr⟩
    | block _ _ _ _ stmt comments toks1 ps1 b toks2 ps2 ds _ _ hs h1 h2 =>
      rw [hs]
      exact ⟨fun e t p h => (by cases h), ((payErrors_rel o file).enter stmt ctx ps1).trans
        (((payErrors_rel o file).runOk h1).trans ((payErrors_rel o file).runOk h2))⟩
  | next ctx t toks ps new toks1 ps1 ctx' t' toks' ps' hs hv ih =>
    intro ds toksE psE hr
    cases hr with
    | stop _ _ _ _ _ _ hs' => rw [hs] at hs'; cases hs'
    | next _ _ _ _ new toks1 ps1 ds _ _ hs' hr => rw [hs] at hs'; cases hs'; exact ih hr
    | block _ _ _ _ stmt comments toks1 ps1 b toks2 ps2 ds _ _ hs' h1 h2 => rw [hs] at hs'; cases hs'
  | inside ctx t toks ps stmt comments toks1 ps1 ctx' t' toks' ps' hs hv ih =>
    intro ds toksE psE hr
    cases hr with
    | stop _ _ _ _ _ _ hs' => rw [hs] at hs'; cases hs'
    | next _ _ _ _ new toks1 ps1 ds _ _ hs' hr => rw [hs] at hs'; cases hs'
    | block _ _ _ _ stmt comments toks1 ps1 b toks2 ps2 ds _ _ hs' h1 h2 =>
      rw [hs] at hs'; cases hs'
      obtain ⟨i1, i2⟩ := ih h1
      exact ⟨i1, i2.trans ((payErrors_rel o file).runOk h2)⟩
  | after ctx t toks ps stmt comments toks1 ps1 b toks2 ps2 ctx' t' toks' ps' hs hr1 hv ih =>
    intro ds toksE psE hr
    cases hr with
    | stop _ _ _ _ _ _ hs' => rw [hs] at hs'; cases hs'
    | next _ _ _ _ new toks1 ps1 ds _ _ hs' hr => rw [hs] at hs'; cases hs'
    | block _ _ _ _ stmt comments toks1 ps1 b toks2 ps2 ds _ _ hs' h1 h2 =>
      rw [hs] at hs'; cases hs'
      obtain ⟨-, rfl, rfl⟩ := hr1.det h1
      exact ih h2

/-- A round of a failing run is the one that fails, or its errors are kept. -/
theorem RunFail.visits {env : Env} {o : ParseOptions} {configDir file : Str} {ctx ctx' : Ctx} {toks toks' : List Tok} {ps ps' : PS} {t' : Tok}
    (hv : Visits env o configDir file ctx toks ps ctx' t' toks' ps') :
    ∀ {e toksE psE}, RunFail env o configDir file ctx toks ps e toksE psE →
    (∀ e' toks2 ps2, step env o configDir file ctx' t' toks' ps' = .fail e' toks2 ps2 → e' = e) ∧
    (step env o configDir file ctx' t' toks' ps').ps.payErrors <+: psE.payErrors := by
  induction hv with
  | here ctx t toks ps =>
    intro e toksE psE hr
    cases hr with
    | fail _ _ _ _ _ _ _ hs => rw [hs]; exact ⟨fun e t p h => (by cases h; rfl), List.prefix_rfl⟩
    | next _ _ _ _ new toks1 ps1 _ _ _ hs hr => rw [hs]; exact ⟨fun e t p h => (by cases h), (payErrors_rel o file).runFail hr⟩
    | inside _ _ _ _ stmt comments toks1 ps1 _ _ _ hs h1 =>
      rw [hs]
      exact ⟨fun e t p h => (by cases h), ((payErrors_rel o file).enter stmt ctx ps1).trans ((payErrors_rel o file).runFail h1)⟩
    | after _ _ _ _ stmt comments toks1 ps1 b toks2 ps2 _ _ _ hs h1 h2 =>
      rw [hs]
      exact ⟨fun e t p h => (by cases h), ((payErrors_rel o file).enter stmt ctx ps1).trans
        (((payErrors_rel o file).runOk h1).trans ((payErrors_rel o file).runFail h2))⟩
  | next ctx t toks ps new toks1 ps1 ctx' t' toks' ps' hs hv ih =>
    intro e toksE psE hr
    cases hr with
    | fail _ _ _ _ _ _ _ hs' => rw [hs] at hs'; cases hs'
    | next _ _ _ _ new toks1 ps1 _ _ _ hs' hr => rw [hs] at hs'; cases hs'; exact ih hr
    | inside _ _ _ _ stmt comments toks1 ps1 _ _ _ hs' h1 => rw [hs] at hs'; cases hs'
    | after _ _ _ _ stmt comments toks1 ps1 b toks2 ps2 _ _ _ hs' h1 h2 => rw [hs] at hs'; cases hs'
  | inside ctx t toks ps stmt comments toks1 ps1 ctx' t' toks' ps' hs hv ih =>
    intro e toksE psE hr
    cases hr with
    | fail _ _ _ _ _ _ _ hs' => rw [hs] at hs'; cases hs'
    | next _ _ _ _ new toks1 ps1 _ _ _ hs' hr => rw [hs] at hs'; cases hs'
    | inside _ _ _ _ stmt comments toks1 ps1 _ _ _ hs' h1 => rw [hs] at hs'; cases hs'; exact ih h1
    | after _ _ _ _ stmt comments toks1 ps1 b toks2 ps2 _ _ _ hs' h1 h2 =>
      rw [hs] at hs'; cases hs'
      obtain ⟨i1, i2⟩ := RunOk.visits hv h1
      exact ⟨fun e' t p h => absurd h (i1 e' t p), i2.trans ((payErrors_rel o file).runFail h2)⟩
  | after ctx t toks ps stmt comments toks1 ps1 b toks2 ps2 ctx' t' toks' ps' hs hr1 hv ih =>
    intro e toksE psE hr
    cases hr with
    | fail _ _ _ _ _ _ _ hs' => rw [hs] at hs'; cases hs'
    | next _ _ _ _ new toks1 ps1 _ _ _ hs' hr => rw [hs] at hs'; cases hs'
    | inside _ _ _ _ stmt comments toks1 ps1 _ _ _ hs' h1 =>
      rw [hs] at hs'; cases hs'
      exact absurd h1 (fun h => hr1.not_fail h)
    | after _ _ _ _ stmt comments toks1 ps1 b toks2 ps2 _ _ _ hs' h1 h2 =>
      rw [hs] at hs'; cases hs'
      obtain ⟨-, rfl, rfl⟩ := hr1.det h1
      exact ih h2

theorem FilesOk.errors_grow {env : Env} {o : ParseOptions} {configDir : Str} {ps ps' : PS} {cs : List Config}
    (h : FilesOk env o configDir ps cs ps') : ps.payErrors <+: ps'.payErrors := by
  induction h with
  | nil => exact List.prefix_rfl
  | ok ps incl rest data ds toks' ps1 cs ps' hi ho hr hf ih => exact ((payErrors_rel o incl.path).runOk hr).trans ih
  | bad ps incl rest data e toks' ps1 cs ps' hi ho hr hs hf ih =>
    exact ((payErrors_rel o incl.path).runFail hr).trans (((payErrors_rel o incl.path).err ps1 e).trans ih)

/-- When the worklist loop ends, the errors of every round it came to have been recorded; a panic does not occur. -/
theorem FilesOk.visits {env : Env} {o : ParseOptions} {configDir : Str} {ps ps1 : PS} {file : Str} {ctx : Ctx} {t : Tok} {toks : List Tok}
    (hv : FilesVisits env o configDir ps file ctx t toks ps1) : ∀ {cs ps'}, FilesOk env o configDir ps cs ps' →
    (∀ toks2 ps2, step env o configDir file ctx t toks ps1 ≠ .fail none toks2 ps2) ∧
    (∀ e toks2 ps2, step env o configDir file ctx t toks ps1 = .fail (some e) toks2 ps2 →
      o.stopParsingOnError = false ∧ ∃ pe ∈ ps'.payErrors, pe.error = e ∧ pe.file = file ∧ pe.line = e.line?) ∧
    (step env o configDir file ctx t toks ps1).ps.payErrors <+: ps'.payErrors := by
  induction hv with
  | here ps incl rest data ctx t toks ps1 hi ho hv =>
    intro cs ps' hf
    cases hf with
    | nil _ h => rw [h] at hi; cases hi
    | ok _ incl rest data ds toks' ps2 cs _ hi' ho' hr hf =>
      rw [hi] at hi'; cases hi'; rw [ho] at ho'; cases ho'
      obtain ⟨i1, i2⟩ := RunOk.visits hv hr
      exact ⟨fun t p => i1 none t p, fun e t p h => absurd h (i1 _ t p), i2.trans hf.errors_grow⟩
    | bad _ incl rest data e toks' ps2 cs _ hi' ho' hr hs hf =>
      rw [hi] at hi'; cases hi'; rw [ho] at ho'; cases ho'
      obtain ⟨i1, i2⟩ := RunFail.visits hv hr
      have hg := hf.errors_grow
      refine ⟨fun t p h => (by cases i1 none t p h), fun e' t p h => ?_, i2.trans (((payErrors_rel o incl.path).err ps2 e).trans hg)⟩
      cases i1 _ t p h
      exact ⟨hs, _, hg.subset (List.mem_append_right _ (List.mem_singleton.mpr rfl)), rfl, rfl, rfl⟩
  | ok ps incl rest data ds toks' ps1 file ctx t toks ps2 hi ho hr hv ih =>
    intro cs ps' hf
    cases hf with
    | nil _ h => rw [h] at hi; cases hi
    | ok _ incl rest data ds toks' ps2 cs _ hi' ho' hr' hf =>
      rw [hi] at hi'; cases hi'; rw [ho] at ho'; cases ho'
      obtain ⟨-, -, rfl⟩ := hr.det hr'
      exact ih hf
    | bad _ incl rest data e toks' ps2 cs _ hi' ho' hr' hs hf =>
      rw [hi] at hi'; cases hi'; rw [ho] at ho'; cases ho'
      exact absurd hr' (fun h => hr.not_fail h)
  | bad ps incl rest data e toks' ps1 file ctx t toks ps2 hi ho hr hs hv ih =>
    intro cs ps' hf
    cases hf with
    | nil _ h => rw [h] at hi; cases hi
    | ok _ incl rest data ds toks' ps2 cs _ hi' ho' hr' hf =>
      rw [hi] at hi'; cases hi'; rw [ho] at ho'; cases ho'
      exact absurd hr (fun h => hr'.not_fail h)
    | bad _ incl rest data e toks' ps2 cs _ hi' ho' hr' hs hf =>
      rw [hi] at hi'; cases hi'; rw [ho] at ho'; cases ho'
      obtain ⟨he, -, rfl⟩ := hr.det hr'
      cases he
      exact ih hf

end Verif
