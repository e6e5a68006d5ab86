import Verif.Proofs.Congr
import Verif.Props.Ex
/-!
# C12, C30, C32: files
-/
namespace Verif
open Spec

/-! ## C12 -/

/-- C12 is false: a file whose reader fails after `user` a `;` is reported as parsed. -/
theorem C12_false : ¬ ∀ (env : Env) (fuel : Nat) (filename : Str) (o : ParseOptions) (data : FileData) (p : Payload),
    env.openFile 0 filename = .ok data → data.readErr = true → Parse env fuel filename o = .ok p → p.errors ≠ [] := by
  intro h
  exact h { exEnv [] with openFile := fun _ _ => .ok { runes := c!"user a;", readErr := true } } 2 c!"/e/a" exOpts
    { runes := c!"user a;", readErr := true } (okPayload [(c!"/e/a", [dir c!"user" 1 [c!"a"]])]) rfl rfl (by decide +kernel) (by decide)

/-- C12, what holds instead: a failing reader is treated exactly like one that ends at that point. -/
theorem C12_partial (env : Env) (fail : Nat → Str → Bool) (fuel : Nat) (filename : Str) (o : ParseOptions) :
    Parse { env with openFile := fun n f => (env.openFile n f).map (fun d => { d with readErr := fail n f }) } fuel filename o =
      Parse env fuel filename o := by
  apply Parse_congr
  · intro file ctx stmt ps
    unfold doInclude
    simp only
    split
    · split
      · rfl
      · rename_i a as ha
        generalize (if !env.isAbs a then env.join (env.dir filename) a else a) = p
        split
        · rfl
        · cases env.openFile ps.opens p <;> rfl
    · rfl
  · intro n f
    simp only
    cases env.openFile n f <;> rfl
  · rfl
  · rfl

/-- When the reader fails in the middle of a statement, that is an error, as for a file that ends there. -/
example : Parse { exEnv [] with openFile := fun _ _ => .ok { runes := c!"user a", readErr := true } } 2 c!"/e/a" exOpts =
    .ok (badPayload c!"/e/a" 1 (prematureError c!"/e/a" [] 1) []) := by decide +kernel

/-! ## C30 -/

theorem doInclude_single {env : Env} {o : ParseOptions} (ho : o.singleFile = true) (configDir file : Str) (ctx : Ctx) (stmt : Directive) (ps : PS) :
    doInclude env o configDir file ctx stmt ps = (.ok stmt, ps) := by
  unfold doInclude
  simp [ho]

/-- The worklist is not extended. -/
theorem includes_single {env : Env} {o : ParseOptions} (ho : o.singleFile = true) {configDir file : Str} {ctx : Ctx} {t : Tok} {toks : List Tok}
    {ps : PS} (hi : ps.includes = []) : (step env o configDir file ctx t toks ps).ps.includes = [] := by
  have hc := step_cases env o configDir file ctx t toks ps
  generalize step env o configDir file ctx t toks ps = s at hc
  cases hc with
  | inclFail _ _ _ _ _ _ _ _ _ _ _ _ h => rw [doInclude_single ho] at h; cases h
  | simple _ _ _ _ _ _ _ _ _ _ _ _ h => rw [doInclude_single ho] at h; cases h; exact hi
  | block _ _ _ _ _ _ _ _ _ _ _ _ h => rw [doInclude_single ho] at h; cases h; exact hi
  | _ => exact hi

theorem enter_includes {stmt : Directive} {ctx : Ctx} {ps : PS} (h : ps.includes = []) : (enterBlockCtx stmt ctx ps).2.includes = [] := by
  unfold enterBlockCtx
  split
  · exact h
  · split <;> simp [h]

theorem RunOk.single {env : Env} {o : ParseOptions} (ho : o.singleFile = true) {configDir file : Str} {ctx : Ctx} {toks : List Tok} {ps : PS}
    {ds : List Directive} {toks' : List Tok} {ps' : PS} (h : RunOk env o configDir file ctx toks ps ds toks' ps') (hi : ps.includes = []) :
    ps'.includes = [] := by
  induction h with
  | eof => exact hi
  | stop ctx t toks ps toks' ps' hs =>
    have := includes_single ho (env := env) (configDir := configDir) (file := file) (ctx := ctx) (t := t) (toks := toks) hi
    rw [hs] at this; exact this
  | next ctx t toks ps new toks1 ps1 ds toks' ps' hs _ ih =>
    have := includes_single ho (env := env) (configDir := configDir) (file := file) (ctx := ctx) (t := t) (toks := toks) hi
    rw [hs] at this; exact ih this
  | block ctx t toks ps stmt comments toks1 ps1 b toks2 ps2 ds toks' ps' hs _ _ ih1 ih2 =>
    have := includes_single ho (env := env) (configDir := configDir) (file := file) (ctx := ctx) (t := t) (toks := toks) hi
    rw [hs] at this
    exact ih2 (ih1 (enter_includes this))

theorem RunFail.single {env : Env} {o : ParseOptions} (ho : o.singleFile = true) {configDir file : Str} {ctx : Ctx} {toks : List Tok} {ps : PS}
    {e : Option GoErr} {toks' : List Tok} {ps' : PS} (h : RunFail env o configDir file ctx toks ps e toks' ps') (hi : ps.includes = []) :
    ps'.includes = [] := by
  induction h with
  | fail ctx t toks ps e toks' ps' hs =>
    have := includes_single ho (env := env) (configDir := configDir) (file := file) (ctx := ctx) (t := t) (toks := toks) hi
    rw [hs] at this; exact this
  | next ctx t toks ps new toks1 ps1 e toks' ps' hs _ ih =>
    have := includes_single ho (env := env) (configDir := configDir) (file := file) (ctx := ctx) (t := t) (toks := toks) hi
    rw [hs] at this; exact ih this
  | inside ctx t toks ps stmt comments toks1 ps1 e toks' ps' hs _ ih =>
    have := includes_single ho (env := env) (configDir := configDir) (file := file) (ctx := ctx) (t := t) (toks := toks) hi
    rw [hs] at this
    exact ih (enter_includes this)
  | after ctx t toks ps stmt comments toks1 ps1 b toks2 ps2 e toks' ps' hs h1 _ ih =>
    have := includes_single ho (env := env) (configDir := configDir) (file := file) (ctx := ctx) (t := t) (toks := toks) hi
    rw [hs] at this
    exact ih (h1.single ho (enter_includes this))

/-- C30.  With SingleFile there is one config, for the given file, and no directive has `Includes`. -/
theorem C30_payload {env : Env} {fuel : Nat} {filename : Str} {o : ParseOptions} {p : Payload} (ho : o.singleFile = true)
    (h : Parse env fuel filename o = .ok p) :
    (∃ c, p.config = [c] ∧ c.file = filename) ∧ ∀ c ∈ p.config, ∀ d, Within d c.parsed → d.includes = none := by
  refine ⟨?_, ?_⟩
  · obtain ⟨cs, ps', h1, -, h3, h4⟩ := Parse_ok h
    have hcs : ∃ c, cs = [c] ∧ c.file = filename := by
      cases h1 with
      | nil _ h => cases h
      | ok _ incl rest data ds toks' ps1 cs _ hi hop hr hf =>
        cases hi
        have := hr.single ho rfl
        cases hf with
        | nil => exact ⟨_, rfl, rfl⟩
        | ok _ _ _ _ _ _ _ _ _ hi => rw [this] at hi; cases hi
        | bad _ _ _ _ _ _ _ _ _ hi => rw [this] at hi; cases hi
      | bad _ incl rest data e toks' ps1 cs _ hi hop hr hs hf =>
        cases hi
        have := hr.single ho rfl
        cases hf with
        | nil => exact ⟨_, rfl, rfl⟩
        | ok _ _ _ _ _ _ _ _ _ hi => simp only [handleError] at hi; rw [this] at hi; cases hi
        | bad _ _ _ _ _ _ _ _ _ hi => simp only [handleError] at hi; rw [this] at hi; cases hi
    obtain ⟨c, rfl, hc⟩ := hcs
    cases hcomb : o.combineConfigs with
    | false => exact ⟨c, by rw [h3 hcomb]; rfl, hc⟩
    | true =>
      obtain ⟨out, st, -, -, rfl⟩ := (C35_combined_iff (rawPayload ps' [c]) p c [] rfl).mp ⟨_, h4 hcomb⟩
      exact ⟨_, rfl, hc⟩
  · intro c hc d hd
    obtain ⟨file, inc, cx, hn⟩ := Parse_nodes h c hc d hd
    cases hn with
    | comment => rfl
    | param => rfl
    | stmt _ _ _ _ is _ _ _ _ _ _ _ hincl =>
      cases hincl with
      | other => rfl
      | empty => rfl
      | bad => rfl
      | names _ _ _ _ hs => rw [ho] at hs; cases hs

/-- C30.  With SingleFile the result depends on no other file: nothing but the given file is opened, and nothing is globbed.  The two
environments need only agree on that first opening (and on the path function `dir` and the iteration order of maps). -/
theorem C30_opens {env : Env} {fuel : Nat} {filename : Str} {o : ParseOptions} (ho : o.singleFile = true)
    (opens : Nat → Str → Except GoErr FileData) (glob : Nat → Str → Except GoErr (List Str)) (h : opens 0 filename = env.openFile 0 filename) :
    Parse { env with openFile := opens, glob := glob } fuel filename o = Parse env fuel filename o := by
  have hstep : ∀ file ctx t toks ps,
      step { env with openFile := opens, glob := glob } o (env.dir filename) file ctx t toks ps = step env o (env.dir filename) file ctx t toks ps :=
    fun file => step_congr (fun ctx stmt ps => by rw [doInclude_single ho, doInclude_single ho])
  unfold Parse
  have hpf : parseFiles { env with openFile := opens, glob := glob } o (env.dir filename) fuel (initPS filename) [] =
      parseFiles env o (env.dir filename) fuel (initPS filename) [] := by
    cases fuel with
    | zero => rfl
    | succ fuel =>
      unfold parseFiles
      simp only [initPS, h, parse_congr (hstep _)]
      cases hop : env.openFile 0 filename with
      | error e => rfl
      | ok data =>
        simp only
        have hend : ∀ (ps : PS) (cs : List Config), ps.includes = [] →
            parseFiles { env with openFile := opens, glob := glob } o (env.dir filename) fuel ps cs = parseFiles env o (env.dir filename) fuel ps cs := by
          intro ps cs hi
          cases fuel with
          | zero => rfl
          | succ fuel => unfold parseFiles; rw [hi]
        rcases parse_file env o (env.dir filename) filename ⟨[], 0, 0⟩ (fileToks o data) (startFile (initPS filename) []) with
          ⟨ds, toks', ps1, hr, hp⟩ | ⟨e, toks', ps1, hr, hp⟩
        · simp only [fileToks, startFile, initPS] at hp
          rw [hp]
          exact hend _ _ (hr.single ho rfl)
        · simp only [fileToks, startFile, initPS] at hp
          rw [hp]
          cases e with
          | none => rfl
          | some e =>
            simp only [failRes]
            split
            · rfl
            · exact hend _ _ (hr.single ho rfl)
  rw [hpf]
  rfl

/-- An include is kept as it is, though the file does not exist. -/
example : Parse (exEnv [(c!"/e/a", c!"user a;include b;http{include *.c;}")]) 2 c!"/e/a" { exOpts with singleFile := true } =
    .ok (okPayload [(c!"/e/a", [dir c!"user" 1 [c!"a"], dir c!"include" 1 [c!"b"], blk c!"http" 1 [] [dir c!"include" 1 [c!"*.c"]]])]) := by
  decide +kernel

/-! ## C32 -/

theorem strLt_irrefl (a : Str) : strLt a a = false := by
  induction a with
  | nil => rfl
  | cons x a ih => simp [strLt, ih]

theorem strLt_trans {a b c : Str} (h1 : strLt a b = true) (h2 : strLt b c = true) : strLt a c = true := by
  induction a generalizing b c with
  | nil =>
    cases b with
    | nil => cases h1
    | cons y b =>
      cases c with
      | nil => cases h2
      | cons z c => rfl
  | cons x a ih =>
    cases b with
    | nil => cases h1
    | cons y b =>
      cases c with
      | nil => cases h2
      | cons z c =>
        simp only [strLt, Bool.or_eq_true, Bool.and_eq_true, decide_eq_true_eq, beq_iff_eq] at h1 h2 ⊢
        rcases h1 with h1 | ⟨h1, h1'⟩ <;> rcases h2 with h2 | ⟨h2, h2'⟩
        · left; omega
        · left; omega
        · left; omega
        · right; exact ⟨by omega, ih h1' h2'⟩

theorem strLt_total {a b : Str} (h1 : strLt a b = false) (h2 : strLt b a = false) : a = b := by
  induction a generalizing b with
  | nil =>
    cases b with
    | nil => rfl
    | cons y b => cases h1
  | cons x a ih =>
    cases b with
    | nil => cases h2
    | cons y b =>
      simp only [strLt, Bool.or_eq_false_iff, Bool.and_eq_false_iff, decide_eq_false_iff_not, beq_eq_false_iff_ne] at h1 h2
      have hxy : x.toNat = y.toNat := by omega
      have hx : x = y := by
        apply Char.ext; apply UInt32.toNat_inj.mp; exact hxy
      subst hx
      rw [ih (h1.2.resolve_left (by simp)) (h2.2.resolve_left (by simp))]

theorem strLt_asymm {a b : Str} (h : strLt a b = true) : strLt b a = false := by
  cases hb : strLt b a with
  | false => rfl
  | true => have := strLt_trans h hb; rw [strLt_irrefl] at this; cases this

theorem insertSorted_comm (x y : Str) (l : List Str) : insertSorted x (insertSorted y l) = insertSorted y (insertSorted x l) := by
  induction l with
  | nil =>
    simp only [insertSorted]
    cases h1 : strLt y x with
    | true => simp [strLt_asymm h1]
    | false =>
      cases h2 : strLt x y with
      | true => simp
      | false => simp [strLt_total h1 h2]
  | cons z l ih =>
    simp only [insertSorted]
    cases hy : strLt z y with
    | true =>
      cases hx : strLt z x with
      | true => simp only [if_true, insertSorted, hx, hy, ih]
      | false =>
        have hxy : strLt x y = true := by
          cases h : strLt x y with
          | true => rfl
          | false =>
            exfalso
            cases h' : strLt x z with
            | true => have := strLt_trans h' hy; rw [h] at this; cases this
            | false => have := strLt_total hx h'; subst this; rw [hy] at h; cases h
        simp only [if_true, Bool.false_eq_true, if_false, insertSorted, hx, hxy, hy]
    | false =>
      cases hx : strLt z x with
      | true =>
        have hyx : strLt y x = true := by
          cases h : strLt y x with
          | true => rfl
          | false =>
            exfalso
            cases h' : strLt y z with
            | true => have := strLt_trans h' hx; rw [h] at this; cases this
            | false => have := strLt_total hy h'; subst this; rw [hx] at h; cases h
        simp only [if_true, Bool.false_eq_true, if_false, insertSorted, hx, hyx, hy]
      | false =>
        simp only [Bool.false_eq_true, if_false, insertSorted, hx, hy]
        cases h1 : strLt y x with
        | true => simp [strLt_asymm h1]
        | false =>
          cases h2 : strLt x y with
          | true => simp
          | false => simp [strLt_total h1 h2]

/-- Sorting forgets the order. -/
theorem sortStrings_perm {l l' : List Str} (h : l.Perm l') : sortStrings l = sortStrings l' := by
  induction h with
  | nil => rfl
  | cons x _ ih => simp only [sortStrings, ih]
  | swap x y l => simp only [sortStrings, insertSorted_comm]
  | trans _ _ h1 h2 => exact h1.trans h2

theorem insertSorted_perm (x : Str) (l : List Str) : (insertSorted x l).Perm (x :: l) := by
  induction l with
  | nil => exact .refl _
  | cons y l ih =>
    unfold insertSorted
    split
    · exact (ih.cons y).trans (.swap x y l)
    · exact .refl _

/-- C32.  The names are sorted: the same names, each not greater than the later ones. -/
theorem C32_sorted (l : List Str) : (sortStrings l).Perm l ∧ (sortStrings l).Pairwise (fun a b => strLt b a = false) := by
  induction l with
  | nil => exact ⟨.refl _, .nil⟩
  | cons x l ih =>
    refine ⟨(insertSorted_perm x _).trans (ih.1.cons x), ?_⟩
    have key : ∀ m : List Str, m.Pairwise (fun a b => strLt b a = false) → (insertSorted x m).Pairwise (fun a b => strLt b a = false) := by
      intro m hm
      induction m with
      | nil => simp [insertSorted]
      | cons y m ihm =>
        unfold insertSorted
        rw [List.pairwise_cons] at hm
        split
        · rename_i hyx
          rw [List.pairwise_cons]
          refine ⟨fun b hb => ?_, ihm hm.2⟩
          rcases List.mem_cons.mp ((insertSorted_perm x m).mem_iff.mp hb) with rfl | hb
          · exact strLt_asymm hyx
          · exact hm.1 b hb
        · rename_i hyx
          rw [Bool.not_eq_true] at hyx
          rw [List.pairwise_cons]
          refine ⟨fun b hb => ?_, List.pairwise_cons.mpr hm⟩
          rcases List.mem_cons.mp hb with rfl | hb
          · exact hyx
          · cases h : strLt b x with
            | false => rfl
            | true =>
              exfalso
              have := hm.1 b hb
              cases h' : strLt x y with
              | true => have h2 := strLt_trans h h'; rw [this] at h2; cases h2
              | false => have := strLt_total hyx h'; subst this; rw [h] at this; cases this
    exact key _ ih.2

/-- What Glob returns, up to order. -/
inductive GlobPerm : Except GoErr (List Str) → Except GoErr (List Str) → Prop
  | error (e) : GlobPerm (.error e) (.error e)
  | ok {l l'} : l.Perm l' → GlobPerm (.ok l) (.ok l')

/-- C32.  The result of `Parse` does not depend on the order in which Glob returns names. -/
theorem C32_glob_order {env : Env} {glob : Nat → Str → Except GoErr (List Str)} (h : ∀ n p, GlobPerm (env.glob n p) (glob n p))
    (fuel : Nat) (filename : Str) (o : ParseOptions) : Parse { env with glob := glob } fuel filename o = Parse env fuel filename o := by
  apply Parse_congr
  · intro file ctx stmt ps
    unfold doInclude
    simp only
    split
    · split
      · rfl
      · rename_i a as ha
        generalize (if !env.isAbs a then env.join (env.dir filename) a else a) = p
        split
        · have := h ps.globs p
          generalize env.glob ps.globs p = r1 at this
          generalize glob ps.globs p = r2 at this
          cases this with
          | error => rfl
          | ok hl => simp only [sortStrings_perm hl]
        · rfl
    · rfl
  · intro n f; rfl
  · rfl
  · rfl

/-- C32.  The indices in `Includes` are those of the files in sorted order. -/
theorem C32_includes {env : Env} {fuel : Nat} {filename : Str} {o : ParseOptions} {p : Payload} (h : Parse env fuel filename o = .ok p)
    {c : Config} (hc : c ∈ p.config) {d : Directive} (hd : Within d c.parsed) {is : List Int} (hi : d.includes = some is) :
    ∃ names arg, d.args.head? = some arg ∧ Resolves env (env.dir filename) arg names ∧ names.Pairwise (fun a b => strLt b a = false) ∧
      ∃ inc : List (Str × Int), List.Forall₂ (fun f i => inc.lookup f = some i) names is := by
  obtain ⟨file, inc, cx, hn⟩ := Parse_nodes h c hc d hd
  cases hn with
  | comment => cases hi
  | param => cases hi
  | stmt _ args _ stmt is' _ _ _ _ _ _ _ hincl =>
    simp only at hi
    subst hi
    cases hincl with
    | names a as names _ h1 h2 h3 h4 h5 h6 =>
      refine ⟨names, a, by simp [h3], h4, ?_, inc, h6⟩
      cases h4 with
      | glob n names => exact (C32_sorted names).2
      | file => simp

/-- Glob returns the files in reverse order (`exEnv`). -/
example : ∃ p, Parse (exEnv [(c!"/e/a", c!"user a;"), (c!"/e/b", c!"user b;")]) 3 c!"/e/b" exOpts = .ok p ∧ p.config.length = 1 := by
  exact ⟨okPayload [(c!"/e/b", [dir c!"user" 1 [c!"b"]])], by decide +kernel, rfl⟩

example : Parse { exEnv [(c!"/e/m", c!"include *.c;"), (c!"/e/1.c", c!"user a;"), (c!"/e/2.c", c!"user b;")] with
      glob := fun _ _ => .ok [c!"/e/2.c", c!"/e/1.c"] } 4 c!"/e/m" exOpts =
    .ok (okPayload [(c!"/e/m", [incl 1 c!"*.c" [1, 2]]), (c!"/e/1.c", [dir c!"user" 1 [c!"a"]]), (c!"/e/2.c", [dir c!"user" 1 [c!"b"]])]) := by
  decide +kernel

end Verif
