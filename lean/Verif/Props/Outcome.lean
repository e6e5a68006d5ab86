import Verif.Proofs.Outcome
import Verif.Props.Recovery
/-!
# C80: what becomes of any file
-/
namespace Verif
open Spec

/-- `Parse` of a file whose run fails. -/
theorem Parse_failed {env : Env} {fuel : Nat} {filename : Str} {o : ParseOptions} {data : FileData} {e : Option GoErr} {ps' : PS} {toks' : List Tok}
    (hperm : ∀ l, (env.mapOrder l).Perm l) (hf : 2 ≤ fuel) (hc : o.combineConfigs = false) (ho : env.openFile 0 filename = .ok data)
    (hr : RunFail env o (env.dir filename) filename { vals := [], arr := 0, cap := 0 } (fileToks o data) (startFile (initPS filename) []) e toks' ps') :
    (e = none → Parse env fuel filename o = .panic) ∧
    ∀ e', e = some e' → (o.stopParsingOnError = true → Parse env fuel filename o = .err e') ∧
      ∀ ls, o.stopParsingOnError = false → Noted o filename ls (startFile (initPS filename) []) ps' →
        ∃ p, Parse env fuel filename o = .ok p ∧
          p.config.map (fun c => (c.file, c.status, c.parsed)) = [(filename, c!"failed", [])] ∧
          p.errors.map (fun e => (e.file, e.line)) = ls.map (fun l => (filename, some l)) ++ [(filename, e'.line?)] ∧
          p.config.map (fun c => c.errors.map fun e => e.line) = [ls.map some ++ [e'.line?]] := by
  rcases Parse_eq env fuel filename o with ⟨cs, ps1, h1, h2⟩ | ⟨e1, ps1, h1, h2⟩ | ⟨ps1, h1, h2⟩
  · cases h1 with
    | nil _ hi => cases hi
    | ok _ incl rest data' ds toks1 ps2 cs _ hi hop hrun hmore =>
      cases hi
      have hop : env.openFile 0 filename = .ok data' := hop
      rw [ho] at hop
      cases hop
      exact (hrun.not_fail hr).elim
    | bad _ incl rest data' e1 toks1 ps2 cs _ hi hop hrun hs hmore =>
      cases hi
      have hop : env.openFile 0 filename = .ok data' := hop
      rw [ho] at hop
      cases hop
      obtain ⟨rfl, -, rfl⟩ := hr.det hrun
      refine ⟨fun h => (Option.some_ne_none _ h).elim, fun e' he => ?_⟩
      cases he
      refine ⟨fun h => absurd h (by rw [hs]; simp), fun ls _ hq => ?_⟩
      have k0 : ps'.includes = [] := hq.includes
      obtain ⟨k1, k2, -, k4, k5⟩ := noted_fields hq
      have k4 : ps'.cfgErrors.map (fun e => e.line) = ls.map some := k4
      have k5 : ps'.payErrors.map (fun e => (e.file, e.line)) = ls.map fun l => (filename, some l) := k5
      cases hmore with
      | nil _ hi =>
        rw [h2, isAcyclic_one hperm (by show ps'.includeInDegree = _; rw [k1]; rfl) (by show ps'.includeEdges = _; rw [k2]; rfl), hc]
        refine ⟨_, rfl, rfl, ?_, ?_⟩
        · show (ps'.payErrors ++ [_]).map _ = _
          rw [List.map_append, k5]; rfl
        · show [(ps'.cfgErrors ++ [_]).map fun (e : ConfigError) => e.line] = _
          rw [List.map_append, k4]; rfl
      | ok _ incl rest data' ds toks1 ps2 cs _ hi => exact (by have hi : ps'.includes = _ := hi; rw [k0] at hi; cases hi)
      | bad _ incl rest data' e toks1 ps2 cs _ hi => exact (by have hi : ps'.includes = _ := hi; rw [k0] at hi; cases hi)
  · cases h1 with
    | openErr _ incl rest e hi hop =>
      cases hi
      have hop : env.openFile 0 filename = .error e := hop
      rw [ho] at hop; cases hop
    | stop _ incl rest data' e toks1 ps2 hi hop hrun hs =>
      cases hi
      have hop : env.openFile 0 filename = .ok data' := hop
      rw [ho] at hop; cases hop
      obtain ⟨rfl, -, rfl⟩ := hr.det hrun
      refine ⟨fun h => (Option.some_ne_none _ h).elim, fun e' he => ?_⟩
      cases he
      exact ⟨fun _ => h2, fun ls h _ => by rw [hs] at h; cases h⟩
    | panic _ incl rest data' toks1 ps2 hi hop hrun =>
      cases hi
      have hop : env.openFile 0 filename = .ok data' := hop
      rw [ho] at hop; cases hop
      obtain ⟨rfl, -, rfl⟩ := hr.det hrun
      exact ⟨fun _ => h2, fun e' he => by cases he⟩
    | ok _ incl rest data' ds toks1 ps2 e _ hi hop hrun hmore =>
      cases hi
      have hop : env.openFile 0 filename = .ok data' := hop
      rw [ho] at hop; cases hop
      exact (hrun.not_fail hr).elim
    | bad _ incl rest data' e2 toks1 ps2 e _ hi hop hrun hs hmore =>
      cases hi
      have hop : env.openFile 0 filename = .ok data' := hop
      rw [ho] at hop; cases hop
      obtain ⟨rfl, -, rfl⟩ := hr.det hrun
      refine ⟨fun h => (Option.some_ne_none _ h).elim, fun e' he => ?_⟩
      cases he
      refine ⟨fun h => absurd h (by rw [hs]; simp), fun ls _ hq => ?_⟩
      have k0 : ps'.includes = [] := hq.includes
      exfalso
      cases hmore with
      | openErr _ incl rest e hi => exact (by have hi : ps'.includes = _ := hi; rw [k0] at hi; cases hi)
      | stop _ incl rest data' e toks1 ps2 hi => exact (by have hi : ps'.includes = _ := hi; rw [k0] at hi; cases hi)
      | panic _ incl rest data' toks1 ps2 hi => exact (by have hi : ps'.includes = _ := hi; rw [k0] at hi; cases hi)
      | ok _ incl rest data' ds toks1 ps2 e _ hi => exact (by have hi : ps'.includes = _ := hi; rw [k0] at hi; cases hi)
      | bad _ incl rest data' e1 toks1 ps2 e _ hi => exact (by have hi : ps'.includes = _ := hi; rw [k0] at hi; cases hi)
  · cases h1 with
    | zero => omega
    | ok n _ incl rest data' ds toks1 ps2 _ hi hop hrun hmore =>
      cases hi
      have hop : env.openFile 0 filename = .ok data' := hop
      rw [ho] at hop; cases hop
      exact (hrun.not_fail hr).elim
    | bad n _ incl rest data' e2 toks1 ps2 _ hi hop hrun hs hmore =>
      cases hi
      have hop : env.openFile 0 filename = .ok data' := hop
      rw [ho] at hop; cases hop
      obtain ⟨rfl, -, rfl⟩ := hr.det hrun
      refine ⟨fun h => (Option.some_ne_none _ h).elim, fun e' he => ?_⟩
      cases he
      refine ⟨fun h => absurd h (by rw [hs]; simp), fun ls _ hq => ?_⟩
      have k0 : ps'.includes = [] := hq.includes
      exfalso
      cases hmore with
      | zero => omega
      | ok n _ incl rest data' ds toks1 ps2 _ hi => exact (by have hi : ps'.includes = _ := hi; rw [k0] at hi; cases hi)
      | bad n _ incl rest data' e toks1 ps2 _ hi => exact (by have hi : ps'.includes = _ := hi; rw [k0] at hi; cases hi)

/-- C80.  Something is made of every file: a tree, or an end by an error or a crash. -/
theorem C80_total (r : Rules) (ctx : List Str) (toks : List Tok) : (∃ ds ls rest, Keeps r ctx ds ls toks rest) ∨ ∃ ls last, Breaks r ctx ls last toks :=
  Keeps_total r toks.length ctx toks (Nat.le_refl _)

section
variable {env : Env} {fuel : Nat} {filename : Str} {o : ParseOptions} {data : FileData}

/-- C80.  Without StopParsingOnError, if `ds` is kept of the file and `ls` are the lines of its errors, then this is the tree and these are the errors of the payload. -/
theorem C80_kept (ho : OneFile env filename o data) (hf : 2 ≤ fuel) (hs : o.stopParsingOnError = false) {ds : List Directive} {ls : List Int} {rest : List Tok}
    (h : Keeps (rulesOf o) [] ds ls (fileToks o data) rest) :
    ∃ p, Parse env fuel filename o = .ok p ∧
      p.config.map (fun c => (c.file, c.status, c.parsed)) = [(filename, if ls = [] then c!"ok" else c!"failed", ds)] ∧
      p.errors.map (fun e => (e.file, e.line)) = ls.map (fun l => (filename, some l)) ∧
      p.config.map (fun c => c.errors.map fun e => e.line) = [ls.map some] := by
  rcases h.run (env := env) (configDir := env.dir filename) (file := filename) ho.combine { vals := [], arr := 0, cap := 0 } (startFile (initPS filename) []) rfl rfl
    ho.alone with ⟨-, ps', h1, h2⟩ | ⟨h1, -⟩
  · exact Parse_noted ho.perm hf ho.combine ho.opens h1 h2
  · rw [hs] at h1; cases h1

/-- C80.  Without StopParsingOnError, if an error on the line `line` ends the file, the payload has no tree, and this error after those before it. -/
theorem C80_broken (ho : OneFile env filename o data) (hf : 2 ≤ fuel) (hs : o.stopParsingOnError = false) {ls : List Int} {line : Option Int}
    (h : Breaks (rulesOf o) [] ls (some line) (fileToks o data)) :
    ∃ p, Parse env fuel filename o = .ok p ∧
      p.config.map (fun c => (c.file, c.status, c.parsed)) = [(filename, c!"failed", [])] ∧
      p.errors.map (fun e => (e.file, e.line)) = ls.map (fun l => (filename, some l)) ++ [(filename, line)] ∧
      p.config.map (fun c => c.errors.map fun e => e.line) = [ls.map some ++ [line]] := by
  rcases h.run (env := env) (configDir := env.dir filename) (file := filename) ho.combine { vals := [], arr := 0, cap := 0 } (startFile (initPS filename) []) rfl rfl
    ho.alone with ⟨-, e, toks', ps', h1, h2, e', rfl, rfl⟩ | ⟨h1, -⟩
  · exact ((Parse_failed ho.perm hf ho.combine ho.opens h1).2 e' rfl).2 ls hs h2
  · rw [hs] at h1; cases h1

/-- C80.  `Parse` crashes where the file says so, with StopParsingOnError if there was no error before. -/
theorem C80_crash (ho : OneFile env filename o data) (hf : 2 ≤ fuel) {ls : List Int} (hs : ls = [] ∨ o.stopParsingOnError = false)
    (h : Breaks (rulesOf o) [] ls none (fileToks o data)) : Parse env fuel filename o = .panic := by
  rcases h.run (env := env) (configDir := env.dir filename) (file := filename) ho.combine { vals := [], arr := 0, cap := 0 } (startFile (initPS filename) []) rfl rfl
    ho.alone with ⟨-, e, toks', ps', h1, h2, rfl⟩ | ⟨h1, l, ls', e, rfl, -⟩
  · exact (Parse_failed ho.perm hf ho.combine ho.opens h1).1 rfl
  · rcases hs with h | h
    · cases h
    · rw [h] at h1; cases h1

/-- C80.  With StopParsingOnError, `Parse` returns the first of the errors there are without it. -/
theorem C80_stop (ho : OneFile env filename o data) (hf : 2 ≤ fuel) (hs : o.stopParsingOnError = true) {l : Int} {ls : List Int}
    (h : (∃ ds rest, Keeps (rulesOf o) [] ds (l :: ls) (fileToks o data) rest) ∨ (∃ last, Breaks (rulesOf o) [] (l :: ls) last (fileToks o data))) :
    ∃ e, Parse env fuel filename o = .err e ∧ e.line? = some l := by
  rcases h with ⟨ds, rest, h⟩ | ⟨last, h⟩
  · rcases h.run (env := env) (configDir := env.dir filename) (file := filename) ho.combine { vals := [], arr := 0, cap := 0 } (startFile (initPS filename) []) rfl rfl
      ho.alone with ⟨h1, -⟩ | ⟨-, l', ls', e, h1, h2, toks', ps', h3⟩
    · rcases h1 with h1 | h1
      · cases h1
      · rw [hs] at h1; cases h1
    · cases h1
      exact ⟨e, ((Parse_failed ho.perm hf ho.combine ho.opens h3).2 e rfl).1 hs, h2⟩
  · rcases h.run (env := env) (configDir := env.dir filename) (file := filename) ho.combine { vals := [], arr := 0, cap := 0 } (startFile (initPS filename) []) rfl rfl
      ho.alone with ⟨h1, -⟩ | ⟨-, l', ls', e, h1, h2, toks', ps', h3⟩
    · rcases h1 with h1 | h1
      · cases h1
      · rw [hs] at h1; cases h1
    · cases h1
      exact ⟨e, ((Parse_failed ho.perm hf ho.combine ho.opens h3).2 e rfl).1 hs, h2⟩

/-- C80.  With StopParsingOnError and no error on the way, the error that ends the file is returned. -/
theorem C80_stop_last (ho : OneFile env filename o data) (hf : 2 ≤ fuel) (hs : o.stopParsingOnError = true) {line : Option Int}
    (h : Breaks (rulesOf o) [] [] (some line) (fileToks o data)) : ∃ e, Parse env fuel filename o = .err e ∧ e.line? = line := by
  rcases h.run (env := env) (configDir := env.dir filename) (file := filename) ho.combine { vals := [], arr := 0, cap := 0 } (startFile (initPS filename) []) rfl rfl
    ho.alone with ⟨-, e, toks', ps', h1, h2, e', rfl, rfl⟩ | ⟨-, l', ls', e, h1, -⟩
  · exact ⟨e', ((Parse_failed ho.perm hf ho.combine ho.opens h1).2 e' rfl).1 hs, rfl⟩
  · cases h1

/-- C80.  Without errors the payload is ok, with or without StopParsingOnError. -/
theorem C80_ok (ho : OneFile env filename o data) (hf : 2 ≤ fuel) {ds : List Directive} {rest : List Tok}
    (h : Keeps (rulesOf o) [] ds [] (fileToks o data) rest) : Parse env fuel filename o = .ok (okPayload [(filename, ds)]) := by
  rcases h.run (env := env) (configDir := env.dir filename) (file := filename) ho.combine { vals := [], arr := 0, cap := 0 } (startFile (initPS filename) []) rfl rfl
    ho.alone with ⟨-, ps', h1, n, es, h2, rfl⟩ | ⟨-, l', ls', e, h1, -⟩
  · obtain rfl : es = [] := by simpa using h2
    exact Parse_one ho.perm hf ho.combine ho.opens h1 ⟨n, rfl⟩
  · cases h1

/-- C80.  A crash happens only where the file says so. -/
theorem C80_crash_iff (ho : OneFile env filename o data) (hf : 2 ≤ fuel) (hs : o.stopParsingOnError = false) :
    Parse env fuel filename o = .panic ↔ ∃ ls, Breaks (rulesOf o) [] ls none (fileToks o data) := by
  constructor
  · intro h
    rcases C80_total (rulesOf o) [] (fileToks o data) with ⟨ds, ls, rest, hk⟩ | ⟨ls, last, hb⟩
    · obtain ⟨p, hp, -⟩ := C80_kept ho hf hs hk
      rw [h] at hp; cases hp
    · cases last with
      | none => exact ⟨ls, hb⟩
      | some line =>
        obtain ⟨p, hp, -⟩ := C80_broken ho hf hs hb
        rw [h] at hp; cases hp
  · rintro ⟨ls, h⟩
    exact C80_crash ho hf (Or.inr hs) h

/-- C80.  The tree and the errors of the payload are those that the file says. -/
theorem C80_payload (ho : OneFile env filename o data) (hf : 2 ≤ fuel) (hs : o.stopParsingOnError = false) {p : Payload} (h : Parse env fuel filename o = .ok p) :
    ∃ ds ls, p.config.map (fun c => (c.file, c.parsed)) = [(filename, ds)] ∧ p.errors.map (fun e => e.line) = ls ∧
      ((∃ ls' rest, ls = ls'.map some ∧ Keeps (rulesOf o) [] ds ls' (fileToks o data) rest) ∨
        ∃ ls' line, ls = ls'.map some ++ [line] ∧ ds = [] ∧ Breaks (rulesOf o) [] ls' (some line) (fileToks o data)) := by
  have two : ∀ {cs : List Config} {a : Str} {b : Str} {ds : List Directive}, cs.map (fun c => (c.file, c.status, c.parsed)) = [(a, b, ds)] →
      cs.map (fun c => (c.file, c.parsed)) = [(a, ds)] := by
    intro cs a b ds h
    have := congrArg (List.map fun x : Str × Str × List Directive => (x.1, x.2.2)) h
    simpa using this
  have snd : ∀ {es : List PayloadError} {xs : List (Str × Option Int)}, es.map (fun e => (e.file, e.line)) = xs → es.map (fun e => e.line) = xs.map (·.2) := by
    intro es xs h
    rw [← h, List.map_map]; rfl
  rcases C80_total (rulesOf o) [] (fileToks o data) with ⟨ds, ls, rest, hk⟩ | ⟨ls, last, hb⟩
  · obtain ⟨p', hp, h1, h2, -⟩ := C80_kept ho hf hs hk
    rw [h] at hp; cases hp
    exact ⟨ds, _, two h1, rfl, Or.inl ⟨ls, rest, by rw [snd h2, List.map_map]; rfl, hk⟩⟩
  · cases last with
    | none => rw [C80_crash ho hf (Or.inr hs) hb] at h; cases h
    | some line =>
      obtain ⟨p', hp, h1, h2, -⟩ := C80_broken ho hf hs hb
      rw [h] at hp; cases hp
      exact ⟨[], _, two h1, rfl, Or.inr ⟨ls, line, by rw [snd h2, List.map_append, List.map_map]; rfl, rfl, hb⟩⟩

end

/-- C80.  The files of C74 are among those of which something is kept. -/
theorem C80_recover {r : Rules} {c : List Str} {ds : List Directive} {ls : List Int} {toks : List Tok} (h : Recover r c ds ls toks) :
    ∀ (x x' : List Tok), (∀ t ∈ toks, t.error = none) → (x = [] ∧ x' = [] ∨ ∃ cl, Mark cl c!"}" ∧ cl.error = none ∧ x = cl :: x') →
      Keeps r c ds ls (toks ++ x) x' := by
  have head : ∀ {t : Tok}, t.error = none → WordTok t → HeadTok t := fun he h => ⟨he, h.2.2.1, h.1⟩
  have after : ∀ {u : Tok} {l : List Tok}, Mark u c!";" → After u l l := by
    intro u l h
    rw [After_iff h.1, skipBlock_semi h]
  have afterBlock : ∀ {u cl : Tok} {inner l : List Tok}, Mark u c!"{" → Shape inner → Mark cl c!"}" → (∀ t ∈ inner, t.error = none) →
      After u (inner ++ cl :: l) l := by
    intro u cl inner l h h1 h2 h3
    rw [After_iff h.1, skipBlock_open h h1 h2 h3]
  induction h with
  | nil =>
    intro x x' he hx
    rcases hx with ⟨rfl, rfl⟩ | ⟨cl, h1, h2, rfl⟩
    · exact .eof
    · exact .stop (.close h2 h1)
  | comment hpc ht _ ih =>
    intro x x' he hx
    have := Keeps.on (.comment (he _ (by simp)) ht) (ih x x' (fun y hy => he y (by simp [hy])) hx)
    simpa [hpc] using this
  | skip hpc ht _ ih =>
    intro x x' he hx
    have := Keeps.on (.comment (he _ (by simp)) ht) (ih x x' (fun y hy => he y (by simp [hy])) hx)
    simpa [hpc] using this
  | param hm hw hwords hsemi hargs _ ih =>
    intro x x' he hx
    have := Keeps.on (.param (head (he _ (by simp)) hw) hm hwords hsemi hargs) (ih x x' (fun y hy => he y (by simp [hy])) hx)
    simpa using this
  | wrongParam hm hw hwords hsemi hargs _ ih =>
    intro x x' he hx
    have := Keeps.on (.wrongParam (head (he _ (by simp)) hw) hm hwords (Or.inl hsemi) (fun h => hargs h.2) (after hsemi)) (ih x x' (fun y hy => he y (by simp [hy])) hx)
    simpa using this
  | wrongParamBlock hm hw hwords hopen hinner hclose _ ih =>
    intro x x' he hx
    have := Keeps.on (.wrongParam (head (he _ (by simp)) hw) hm hwords (Or.inr (Or.inl hopen)) (fun h => by rw [hopen.2] at h; simp at h)
      (afterBlock hopen hinner hclose fun y hy => he y (by simp [hy]))) (ih x x' (fun y hy => he y (by simp [hy])) hx)
    simpa using this
  | ignored hm hig hw hwords hsemi _ ih =>
    intro x x' he hx
    have := Keeps.on (.ignored (head (he _ (by simp)) hw) hm hig hwords (Or.inl hsemi) (after hsemi)) (ih x x' (fun y hy => he y (by simp [hy])) hx)
    simpa using this
  | ignoredBlock hm hig hw hwords hopen hinner hclose _ ih =>
    intro x x' he hx
    have := Keeps.on (.ignored (head (he _ (by simp)) hw) hm hig hwords (Or.inr (Or.inl hopen)) (afterBlock hopen hinner hclose fun y hy => he y (by simp [hy])))
      (ih x x' (fun y hy => he y (by simp [hy])) hx)
    simpa using this
  | simple hm hig hw hwords hsemi hok hargs _ _ ih =>
    intro x x' he hx
    have := Keeps.on (.simple (head (he _ (by simp)) hw) hm hig hwords (Or.inl hsemi) (by rw [hsemi.2]; exact hok) hargs (by rw [hsemi.2]; decide))
      (ih x x' (fun y hy => he y (by simp [hy])) hx)
    simpa using this
  | wrong hm hig hw hwords hsemi hbad hodd _ ih =>
    intro x x' he hx
    have := Keeps.on (.wrong (head (he _ (by simp)) hw) hm hig hwords (Or.inl hsemi) (by rw [hsemi.2]; exact hbad) (by
        rw [hsemi.2]
        rintro (h | h)
        · exact hodd h.2.2
        · exact h.2.1 rfl))
      (ih x x' (fun y hy => he y (by simp [hy])) hx)
    simpa using this
  | @block c t mid args args' texts opening b lb inner closing ds ls toks hm hig hw hwords hopen hok hargs _ _ hclose _ ihb ih =>
    intro x x' he hx
    have := Keeps.block (.block (head (he _ (by simp)) hw) hm hig hwords hopen hok hargs)
      (ihb (closing :: (toks ++ x)) (toks ++ x) (fun y hy => he y (by simp [hy])) (Or.inr ⟨closing, hclose, he closing (by simp), rfl⟩))
      (ih x x' (fun y hy => he y (by simp [hy])) hx)
    simpa using this
  | @wrongBlock c t mid args texts opening inner closing ds ls toks hm hig hw hwords hopen hends hinner hclose _ ih =>
    intro x x' he hx
    obtain ⟨hk, hskip, b, hb, ⟨m0, hm0, hctx⟩, hall⟩ := hends
    have hmem : ∀ m, m ∈ r.masks t.value ↔ HasMask r.sources t.value m := by
      intro m
      simp only [Rules.masks, List.mem_flatMap, HasMask]
      constructor
      · rintro ⟨f, hf, h⟩
        cases hv : f t.value with
        | none => rw [hv] at h; cases h
        | some ms => rw [hv] at h; exact ⟨f, hf, ms, hv, h⟩
      · rintro ⟨f, hf, ms, h1, h2⟩
        exact ⟨f, hf, by rw [h1]; exact h2⟩
    have hU : r.Unended c t.value args opening.value := by
      rw [hopen.2]
      refine Or.inr ⟨hk, by decide, b, ?_⟩
      cases hl : ((r.masks t.value).filter fun m => r.skipCtx || m.testBit b).getLast? with
      | none =>
        rw [List.getLast?_eq_none_iff] at hl
        have : m0 ∈ (r.masks t.value).filter fun m => r.skipCtx || m.testBit b := List.mem_filter.mpr ⟨(hmem m0).mpr hm0, by simpa using hctx⟩
        rw [hl] at this; cases this
      | some m =>
        have hm' := List.mem_filter.mp (List.mem_of_getLast? hl)
        obtain ⟨a1, a2⟩ := hall m ((hmem m).mp hm'.1) (by simpa using hm'.2)
        exact ⟨m, hb, rfl, a1, fun h => by rw [a2] at h; cases h⟩
    have hbad : ¬ r.Ok c t.value args opening.value := by
      rintro ⟨-, h⟩
      obtain ⟨-, h⟩ := h b hb hk
      rcases h with h | ⟨m, h1, h2, h3⟩
      · rw [hskip] at h; cases h
      · have := h3.2.1
        rw [(hall m h1 h2).1, hopen.2] at this
        simp at this
    have := Keeps.on (.wrongSkip (head (he _ (by simp)) hw) hm hig hwords (Or.inr (Or.inl hopen)) (by rw [hopen.2]; decide) hbad hU
        ((Past_iff (toks := inner ++ closing :: (toks ++ x)) (rest := toks ++ x)).mpr (by
          have := skipBlock_open hopen hinner hclose (fun y hy => he y (by simp [hy])) (toks ++ x)
          rw [skipBlock, if_pos (is_mark.mpr hopen)] at this
          exact this.symm))) (ih x x' (fun y hy => he y (by simp [hy])) hx)
    simpa using this

/-! ### Examples -/

/-- A block where it is not allowed: its contents are kept, its `}` ends the file. -/
example : Parse (exEnv [(c!"/e/n", c!"server{listen 80;}user b;")]) 2 c!"/e/n" exOpts =
      .ok (badPayload c!"/e/n" 1 (serr c!"\"server\" directive is not allowed here" c!"/e/n" 1 c!"server " c!"main") [dir c!"listen" 1 [c!"80"]]) ∧
    Keeps (rulesOf exOpts) [] [dir c!"listen" 1 [c!"80"]] [1] (fileToks exOpts { runes := c!"server{listen 80;}user b;" })
      [⟨c!"user", 1, false, none⟩, ⟨c!"b", 1, false, none⟩, ⟨c!";", 1, false, none⟩] := by
  refine ⟨by decide +kernel, ?_⟩
  have hl : fileToks exOpts { runes := c!"server{listen 80;}user b;" } = [⟨c!"server", 1, false, none⟩, ⟨c!"{", 1, false, none⟩, ⟨c!"listen", 1, false, none⟩,
      ⟨c!"80", 1, false, none⟩, ⟨c!";", 1, false, none⟩, ⟨c!"}", 1, false, none⟩, ⟨c!"user", 1, false, none⟩, ⟨c!"b", 1, false, none⟩,
      ⟨c!";", 1, false, none⟩] := by decide +kernel
  have hw : ∀ v line, (⟨v, line, false, none⟩ : Tok).isTerm = false ∧ (⟨v, line, false, none⟩ : Tok).isCommentTok = false →
      WordTok ⟨v, line, false, none⟩ := fun _ _ h => wordTok_iff.mpr h
  have hh : ∀ {t : Tok}, t.error = none → WordTok t → HeadTok t := fun he h => ⟨he, h.2.2.1, h.1⟩
  have hnm : ∀ m, ¬ InMap [] m := mapCtx_none.mp (by decide)
  rw [hl]
  refine .on (ds := []) (ls := [1]) (.wrong (mid := []) (term := ⟨c!"{", 1, false, none⟩) (hh rfl (hw _ _ (by decide))) hnm (by decide) .nil (Or.inr (Or.inl ⟨rfl, rfl⟩)) ?_ ?_)
    (.on (ds := [dir c!"listen" 1 [c!"80"]]) (ls := []) (.simple (mid := [⟨c!"80", 1, false, none⟩]) (term := ⟨c!";", 1, false, none⟩) (texts := []) (args := [c!"80"])
      (hh rfl (hw _ _ (by decide))) hnm (by decide) (.word (hw _ _ (by decide)) .nil) (Or.inl ⟨rfl, rfl⟩) ?_ rfl (by decide)) (.stop (.close rfl ⟨rfl, rfl⟩)))
  · exact fun h => absurd ((analyze_rules [] { directive := c!"server", line := 1, args := [] } c!"{" [] exOpts).mpr h) (by decide +kernel)
  · have := (analyze_unended (fname := []) (stmt := { directive := c!"server", line := 1, args := [] }) (term := c!"{") (ctx := []) (o := exOpts)
      (e := stmtError c!"\"server\" directive is not allowed here" [] { directive := c!"server", line := 1, args := [] } c!"main") (N := fun _ => some []) (by decide +kernel))
    exact fun h => absurd (this.mpr h) (by decide +kernel)
  · exact (analyze_rules [] { directive := c!"listen", line := 1, args := [c!"80"] } c!";" [] exOpts).mp (by decide +kernel)

/-- A statement without an end ends the file: nothing is kept. -/
example : ∃ p, Parse (exEnv [(c!"/e/n", c!"user a;\nuser")]) 2 c!"/e/n" exOpts = .ok p ∧
      p.config.map (fun c => (c.file, c.status, c.parsed)) = [(c!"/e/n", c!"failed", [])] ∧
      p.errors.map (fun e => (e.file, e.line)) = [(c!"/e/n", some 2)] ∧
      p.config.map (fun c => c.errors.map fun e => e.line) = [[some 2]] := by
  have hl : fileToks exOpts { runes := c!"user a;\nuser" } = [⟨c!"user", 1, false, none⟩, ⟨c!"a", 1, false, none⟩, ⟨c!";", 1, false, none⟩,
      ⟨c!"user", 2, false, none⟩] := by decide +kernel
  have hw : ∀ v line, (⟨v, line, false, none⟩ : Tok).isTerm = false ∧ (⟨v, line, false, none⟩ : Tok).isCommentTok = false →
      WordTok ⟨v, line, false, none⟩ := fun _ _ h => wordTok_iff.mpr h
  have hh : ∀ {t : Tok}, t.error = none → WordTok t → HeadTok t := fun he h => ⟨he, h.2.2.1, h.1⟩
  have hnm : ∀ m, ¬ InMap [] m := mapCtx_none.mp (by decide)
  refine C80_broken (ls := []) (line := some 2) (data := { runes := c!"user a;\nuser" }) ⟨fun l => List.Perm.refl l, rfl, Or.inr (by rw [hl]; decide), rfl⟩ (by decide) rfl ?_
  rw [hl]
  exact .on (ls := []) (ls' := []) (.simple (mid := [⟨c!"a", 1, false, none⟩]) (term := ⟨c!";", 1, false, none⟩) (texts := []) (hh rfl (hw _ _ (by decide))) hnm (by decide)
    (.word (hw _ _ (by decide)) .nil) (Or.inl ⟨rfl, rfl⟩)
    ((analyze_rules [] { directive := c!"user", line := 1, args := [c!"a"] } c!";" [] exOpts).mp (by decide +kernel)) rfl (by decide))
    (.broken (line := some 2) (.premature (hh rfl (hw _ _ (by decide))) .nil))

/-- C80.  A directive that should have a block and is ended by the `}` around it takes this `}` with it: what follows the block is read as if it stood in the block, and at
the end of the file nothing is said of the `}` that is now missing.  Here `user b;`, which is right, is found in `http`, and called wrong for it. -/
theorem C80_false_swallowed : ∃ (env : Env) (p : Payload), OneFile env c!"/e/n" exOpts { runes := c!"http{server}user b;map a b{}" } ∧
    Parse env 2 c!"/e/n" exOpts = .ok p ∧ p.config.map (fun c => c.parsed) = [[blk c!"http" 1 [] [blk c!"map" 1 [c!"a", c!"b"] []]]] ∧
    p.errors.map (fun e => e.error.error) = [c!"directive \"server\" has no opening \"{\" in /e/n:1", c!"\"user\" directive is not allowed here in /e/n:1"] := by
  have h : (match Parse (exEnv [(c!"/e/n", c!"http{server}user b;map a b{}")]) 2 c!"/e/n" exOpts with
    | .ok p => decide (p.config.map (fun c => c.parsed) = [[blk c!"http" 1 [] [blk c!"map" 1 [c!"a", c!"b"] []]]] ∧
      p.errors.map (fun e => e.error.error) = [c!"directive \"server\" has no opening \"{\" in /e/n:1", c!"\"user\" directive is not allowed here in /e/n:1"])
    | _ => false) = true := by decide +kernel
  refine ⟨exEnv [(c!"/e/n", c!"http{server}user b;map a b{}")], ?_⟩
  cases hp : Parse (exEnv [(c!"/e/n", c!"http{server}user b;map a b{}")]) 2 c!"/e/n" exOpts with
  | ok p =>
    rw [hp] at h
    exact ⟨p, ⟨fun l => List.Perm.refl l, rfl, Or.inr (by decide +kernel), rfl⟩, rfl, of_decide_eq_true h⟩
  | _ => rw [hp] at h; cases h

end Verif
