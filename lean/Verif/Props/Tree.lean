import Verif.Proofs.Visits
import Verif.Proofs.IfArgs
import Verif.Props.Analyze
import Verif.Props.Ex
/-!
# C22, C23, C26, C27, C30: what is in a payload, and what is recorded
-/
namespace Verif
open Spec

/-! ## C22 -/

/-- C22.  A directive of the payload that is named in IgnoreDirectives is a parameter of a map-like block or a comment.
(The exception for comments is missing in the statement of the property, see `C22_false`.) -/
theorem C22_partial {env : Env} {fuel : Nat} {filename : Str} {o : ParseOptions} {p : Payload} (h : Parse env fuel filename o = .ok p) :
    ∀ cfg ∈ p.config, ∀ d, Within d cfg.parsed → d.directive ∈ o.ignoreDirectives →
      d.isMapBlockParameter = true ∨ (IsComment d ∧ o.parseComments = true) := by
  intro cfg hc d hd hi
  obtain ⟨file, inc, c, hn⟩ := Parse_nodes h cfg hc d hd
  cases hn with
  | comment line text hp => exact Or.inr ⟨⟨rfl, by simp⟩, hp⟩
  | param t args m => exact Or.inl rfl
  | stmt t args term stmt is block h1 h2 =>
    exfalso
    have : contains o.ignoreDirectives t.value = true := by
      unfold contains
      rw [List.any_eq_true]
      exact ⟨_, hi, by simp⟩
    rw [this] at h2; cases h2

/-- The statement of C22 is false: comments are directives named `#`, and are not ignored by that name. -/
theorem C22_false : ¬ ∀ (env : Env) (fuel : Nat) (filename : Str) (o : ParseOptions) (p : Payload), Parse env fuel filename o = .ok p →
    ∀ cfg ∈ p.config, ∀ d, Within d cfg.parsed → d.directive ∈ o.ignoreDirectives → d.isMapBlockParameter = true := by
  intro h
  have := h (exEnv [(c!"/e/a", c!"#x\n")]) 3 c!"/e/a" { exOpts with ignoreDirectives := [c!"#"], parseComments := true }
    (okPayload [(c!"/e/a", [⟨c!"#", 1, [], [], none, none, some c!"x", false⟩])])
    (by decide +kernel) _ (List.mem_singleton.mpr rfl) _ (.here (List.mem_singleton.mpr rfl)) (by decide)
  cases this

/-- `user` is ignored, with its block if there is one, but not as parameter of a map. -/
example : Parse (exEnv [(c!"/e/a", c!"user x; http { user { a; } map a b { user c; } }")]) 3 c!"/e/a"
      { exOpts with ignoreDirectives := [c!"user"] } =
    .ok (okPayload [(c!"/e/a", [blk c!"http" 1 [] [blk c!"map" 1 [c!"a", c!"b"] [param c!"user" 1 [c!"c"]]]])]) := by decide +kernel

/-! ## C23 -/

/-- The sources of directives in use. -/
def sources (o : ParseOptions) : List MatchFunc := if o.directiveSources = [] then [defaultDirectivesMatch] else o.directiveSources

/-- C23.  With ErrorOnUnknownDirectives everything but comments and parameters is known to a source. -/
theorem C23_known {env : Env} {fuel : Nat} {filename : Str} {o : ParseOptions} {p : Payload} (h : Parse env fuel filename o = .ok p)
    (ho : o.errorOnUnknownDirectives = true) :
    ∀ cfg ∈ p.config, ∀ d, Within d cfg.parsed → ¬ IsComment d → d.isMapBlockParameter = false → Known (sources o) d.directive := by
  intro cfg hc d hd hcm hp
  obtain ⟨file, inc, c, hn⟩ := Parse_nodes h cfg hc d hd
  cases hn with
  | comment line text => exact absurd ⟨rfl, by simp⟩ hcm
  | param t args m => cases hp
  | stmt t args term stmt is block h1 h2 h3 h4 h5 =>
    obtain ⟨bit, hb⟩ := lookup_bit c
    rw [analyze_iff _ _ _ _ _ bit hb] at h5
    exact h5.1 ho

/-- C20, C23, C27.  When `Parse` returns a payload, the error of every statement that was rejected on the way (in a map-like block
or elsewhere) is recorded in it, with the file and the line of the statement, and StopParsingOnError is not set. -/
theorem C23_rejected_recorded {env : Env} {fuel : Nat} {filename : Str} {o : ParseOptions} {p : Payload} (h : Parse env fuel filename o = .ok p)
    {file : Str} {ctx : Ctx} {t : Tok} {toks : List Tok} {ps : PS}
    (hv : FilesVisits env o (env.dir filename) (initPS filename) file ctx t toks ps)
    {args comments : List Str} {term : Tok} {rest : List Tok} (R : Reads o t toks args comments term rest) {err : ParseError}
    (hr : (∃ m, mapCtx ctx.vals = some m ∧ analyzeMapBody file (baseStmt o file t args) term.value m = some err) ∨
      (mapCtx ctx.vals = none ∧ t.value ∉ o.ignoreDirectives ∧ analyze file (baseStmt o file t args) term.value ctx.vals o = some err)) :
    o.stopParsingOnError = false ∧ err.file = some file ∧ err.line = some t.line ∧
    ∃ pe ∈ p.errors, pe.error = .parse err ∧ pe.file = file ∧ pe.line = some t.line := by
  obtain ⟨cs, ps', h1, -, h3, h4⟩ := Parse_ok h
  have hpe : p.errors = ps'.payErrors := by
    cases hcomb : o.combineConfigs with
    | false => rw [h3 hcomb]; rfl
    | true =>
      obtain ⟨c0, cs', hcs, -⟩ := h1.ne_nil _ _ rfl
      exact (C36_errors_status (p := rawPayload ps' cs) (by rw [show (rawPayload ps' cs).config = cs from rfl, hcs]; simp) (h4 hcomb)).1
  rw [hpe]
  obtain ⟨-, v2, v3⟩ := FilesOk.visits hv h1
  have hloc : err.file = some file ∧ err.line = some t.line := by
    rcases hr with ⟨m, -, h⟩ | ⟨-, -, h⟩
    · obtain ⟨a, b, -⟩ := C27_error_fields h; exact ⟨a, b⟩
    · obtain ⟨a, b, -⟩ := C24_error_fields h; exact ⟨a, b⟩
  have fin : (step env o (env.dir filename) file ctx t toks ps).ps.payErrors = (handleError o file ps (.parse err)).payErrors →
      ∃ pe ∈ ps'.payErrors, pe.error = .parse err ∧ pe.file = file ∧ pe.line = some t.line := by
    intro he
    rw [he] at v3
    exact ⟨_, v3.subset (List.mem_append_right _ (List.mem_singleton.mpr rfl)), rfl, rfl, hloc.2⟩
  rcases hr with ⟨m, hm, ha⟩ | ⟨hm, hi, ha⟩
  · cases hs : o.stopParsingOnError with
    | true =>
      have := (StepR.mapFail (env := env) (configDir := env.dir filename) (ps := ps) _ _ _ _ _ _ R hm ha hs).step_eq
      have := (v2 _ _ _ this).1
      rw [hs] at this; cases this
    | false =>
      have := (StepR.mapBad (env := env) (configDir := env.dir filename) (ps := ps) _ _ _ _ _ _ R hm ha hs).step_eq
      exact ⟨rfl, hloc.1, hloc.2, fin (by rw [this]; rfl)⟩
  · have hi' : contains o.ignoreDirectives t.value = false := by
      unfold contains
      rw [List.any_eq_false]
      intro x hx hxe
      rw [beq_iff_eq] at hxe
      exact hi (hxe ▸ hx)
    cases hs : o.stopParsingOnError with
    | true =>
      have := (StepR.rejectFail (env := env) (configDir := env.dir filename) (ps := ps) _ _ _ _ _ R hm hi' ha hs).step_eq
      have := (v2 _ _ _ this).1
      rw [hs] at this; cases this
    | false =>
      refine ⟨rfl, hloc.1, hloc.2, fin ?_⟩
      cases hsuf : hasSuffix err.what notTerminated with
      | false =>
        have := (StepR.reject (env := env) (configDir := env.dir filename) (ps := ps) _ _ _ _ _ R hm hi' ha hs hsuf).step_eq
        rw [this]; rfl
      | true =>
        cases ht : (term.value != c!"}" && !term.quoted) with
        | true =>
          have := (StepR.rejectSkip (env := env) (configDir := env.dir filename) (ps := ps) _ _ _ _ _ R hm hi' ha hs hsuf ht).step_eq
          rw [this]; rfl
        | false =>
          have := (StepR.rejectStop (env := env) (configDir := env.dir filename) (ps := ps) _ _ _ _ _ R hm hi' ha hs hsuf ht).step_eq
          rw [this]; rfl

/-- C23.  With ErrorOnUnknownDirectives an unknown directive, when it is met, is recorded as such (it is not in a map-like block
and not ignored). -/
theorem C23_unknown_recorded {env : Env} {fuel : Nat} {filename : Str} {o : ParseOptions} {p : Payload} (h : Parse env fuel filename o = .ok p)
    (ho : o.errorOnUnknownDirectives = true) {file : Str} {ctx : Ctx} {t : Tok} {toks : List Tok} {ps : PS}
    (hv : FilesVisits env o (env.dir filename) (initPS filename) file ctx t toks ps)
    {args comments : List Str} {term : Tok} {rest : List Tok} (R : Reads o t toks args comments term rest)
    (hm : mapCtx ctx.vals = none) (hi : t.value ∉ o.ignoreDirectives) (hk : ¬ Known (sources o) t.value) :
    ∃ pe ∈ p.errors, pe.file = file ∧ pe.line = some t.line ∧
      ∃ e, pe.error = .parse e ∧ e.what = c!"unknown directive \"" ++ t.value ++ c!"\"" ∧ e.file = some file ∧ e.line = some t.line := by
  have hl : lookupMasks o t.value = none := by
    cases hl : lookupMasks o t.value with
    | none => rfl
    | some ms =>
      exfalso
      obtain ⟨bit, hb⟩ := lookup_bit ctx.vals
      have := analyze_iff file (baseStmt o file t args) term.value ctx.vals { o with skipDirectiveContextCheck := true, skipDirectiveArgsCheck := true } bit hb
      have hl' : lookupMasks { o with skipDirectiveContextCheck := true, skipDirectiveArgsCheck := true } (baseStmt o file t args).directive = some ms := hl
      have ha : analyze file (baseStmt o file t args) term.value ctx.vals
          { o with skipDirectiveContextCheck := true, skipDirectiveArgsCheck := true } = none := by
        unfold analyze
        simp only [hl', Option.isNone_some, Bool.and_false, Bool.false_eq_true, if_false, if_true, Bool.not_true, Bool.false_and]
        cases contexts.lookup (ctxKey ctx.vals) <;> rfl
      exact hk ((this.mp ha).1 ho)
  have ha : analyze file (baseStmt o file t args) term.value ctx.vals o =
      some (stmtError (c!"unknown directive \"" ++ t.value ++ c!"\"") file (baseStmt o file t args) (getLastBlock ctx.vals)) := by
    have hl' : lookupMasks o (baseStmt o file t args).directive = none := hl
    unfold analyze
    simp only [hl', ho, Option.isNone_none, Bool.and_self, if_true]
    rfl
  obtain ⟨-, -, -, pe, h1, h2, h3, h4⟩ := C23_rejected_recorded h hv R (Or.inr ⟨hm, hi, ha⟩)
  exact ⟨pe, h1, h3, h4, _, h2, rfl, rfl, rfl⟩

/-- The first statement of the main file is always met. -/
theorem FilesVisits.first {env : Env} {o : ParseOptions} {filename : Str} {data : FileData} {t : Tok} {toks : List Tok}
    (ho : env.openFile 0 filename = .ok data) (ht : fileToks o data = t :: toks) :
    ∃ ctx ps, ctx.vals = [] ∧ FilesVisits env o (env.dir filename) (initPS filename) filename ctx t toks ps := by
  refine ⟨⟨[], 0, 0⟩, startFile (initPS filename) [], rfl, ?_⟩
  refine FilesVisits.here (initPS filename) { path := filename, ctx := ⟨[], 0, 0⟩ } [] data ⟨[], 0, 0⟩ t toks _ rfl ho ?_
  rw [ht]; exact .here _ _ _ _

/-- `foo` is rejected and recorded, `user` is kept. -/
example : Parse (exEnv [(c!"/e/a", c!"foo x; user y;")]) 3 c!"/e/a" { exOpts with errorOnUnknownDirectives := true } =
    .ok (badPayload c!"/e/a" 1 (serr c!"unknown directive \"foo\"" c!"/e/a" 1 c!"foo x" c!"main") [dir c!"user" 1 [c!"y"]]) := by
  decide +kernel

/-! ## C26 -/

/-- The arguments as they were checked: those of `if` had their parentheses. -/
def CheckedArgs (d : Directive) (args : List Str) : Prop := if d.directive = c!"if" then IfArgs args d.args else d.args = args

theorem node_checked {env : Env} {o : ParseOptions} {configDir file : Str} {inc : List (Str × Int)} {c : List Str} {d : Directive}
    (h : Node env o configDir file inc c d) (hc : ¬ IsComment d) (hp : d.isMapBlockParameter = false) :
    (∀ m ∈ mapBlocks, c.getLast? ≠ some m) ∧
    ∃ args term, CheckedArgs d args ∧ (term = c!";" ∨ term = c!"{" ∨ term = c!"}") ∧ (term = c!"{" ↔ d.block ≠ none) ∧
      analyze file ⟨d.directive, d.line, args, d.file, none, none, none, false⟩ term c o = none := by
  cases h with
  | comment line text => exact absurd ⟨rfl, by simp⟩ hc
  | param t args m => cases hp
  | stmt t args term stmt is block h1 h2 h3 h4 h5 h6 h7 h8 =>
    refine ⟨?_, args, term.value, ?_, ?_, ?_, h5⟩
    · intro m hm hl
      unfold mapCtx at h1
      rw [hl] at h1
      simp only at h1
      have : (mapBodies.lookup m).isSome = true := by
        clear h1 hl
        revert m; decide
      rw [this] at h1; simp at h1
    · unfold CheckedArgs
      unfold prepIf at h6
      split
      · rename_i hif
        rw [if_pos (by simpa [baseStmt] using hif)] at h6
        exact (prepareIfArgs_some h6).1
      · rename_i hif
        rw [if_neg (by simpa [baseStmt] using hif)] at h6
        cases h6; rfl
    · obtain ⟨-, h⟩ := (isTerm_iff term).mp h3
      rcases h with h | h | h <;> simp [h]
    · rw [← h8]; cases block <;> simp

/-- C26.  Config `i` of a payload that is not combined was parsed in some block context (the empty one for the first config),
and everything in it that is not a comment and not a parameter of a map-like block was accepted by the statement check for the
block context in which it stands. -/
theorem C26_checked {env : Env} {fuel : Nat} {filename : Str} {o : ParseOptions} {p : Payload} (h : Parse env fuel filename o = .ok p)
    (ho : o.combineConfigs = false) {i : Nat} {cfg : Config} (hi : p.config[i]? = some cfg) :
    ∃ ctx : List Str, (i = 0 → ctx = []) ∧ ∀ d c, At d ctx cfg.parsed c → ¬ IsComment d → d.isMapBlockParameter = false →
      ∃ args term, CheckedArgs d args ∧ (term = c!";" ∨ term = c!"{" ∨ term = c!"}") ∧ (term = c!"{" ↔ d.block ≠ none) ∧
        analyze cfg.file ⟨d.directive, d.line, args, d.file, none, none, none, false⟩ term c o = none := by
  obtain ⟨cs, ps', h1, -, h3, -⟩ := Parse_ok h
  rw [h3 ho] at hi
  change cs[i]? = some cfg at hi
  cases h1 with
  | nil _ hinc => cases hinc
  | ok _ incl rest data ds toks' ps1 cs _ hinc hopen hr hf =>
    cases i with
    | zero =>
      cases hi
      cases hinc
      exact ⟨[], fun _ => rfl, fun d c hd hc hp => (node_checked (hr.nodes d c hd) hc hp).2⟩
    | succ i =>
      obtain ⟨ctx, hctx⟩ := hf.nodes.2 cfg (List.mem_of_getElem? hi)
      exact ⟨ctx, fun h => (by cases h), fun d c hd hc hp => (node_checked (hctx d c hd) hc hp).2⟩
  | bad _ incl rest data e toks' ps1 cs _ hinc hopen hr hs hf =>
    cases i with
    | zero =>
      cases hi
      exact ⟨[], fun _ => rfl, fun d c hd => absurd hd at_nil⟩
    | succ i =>
      obtain ⟨ctx, hctx⟩ := hf.nodes.2 cfg (List.mem_of_getElem? hi)
      exact ⟨ctx, fun h => (by cases h), fun d c hd hc hp => (node_checked (hctx d c hd) hc hp).2⟩

/-- C26 in terms of the masks (C24), for block names without `>`. -/
theorem C26_admitted {env : Env} {fuel : Nat} {filename : Str} {o : ParseOptions} {p : Payload} (h : Parse env fuel filename o = .ok p)
    (ho : o.combineConfigs = false) {i : Nat} {cfg : Config} (hi : p.config[i]? = some cfg) :
    ∃ ctx : List Str, (i = 0 → ctx = []) ∧ ∀ d c, At d ctx cfg.parsed c → ¬ IsComment d → d.isMapBlockParameter = false →
      (∀ b ∈ c, '>' ∉ b) → c ≠ [[]] →
      ∃ args term, CheckedArgs d args ∧ (term = c!"{" ↔ d.block ≠ none) ∧
        StmtOk (sources o) o.errorOnUnknownDirectives o.skipDirectiveContextCheck o.skipDirectiveArgsCheck (contextBit c)
          d.directive args term := by
  obtain ⟨ctx, h1, h2⟩ := C26_checked h ho hi
  refine ⟨ctx, h1, fun d c hd hc hp hb hne => ?_⟩
  obtain ⟨args, term, h3, -, h5, h6⟩ := h2 d c hd hc hp
  exact ⟨args, term, h3, h5, (C24_accepts_iff _ _ _ _ _ hb hne).mp h6⟩

/-- C26 for a combined payload: every directive was accepted in some context with the arguments it has, for the file it names. -/
theorem C26_combined {env : Env} {fuel : Nat} {filename : Str} {o : ParseOptions} {p : Payload} (h : Parse env fuel filename o = .ok p)
    (ho : o.combineConfigs = true) {cfg : Config} (hc : cfg ∈ p.config) :
    ∀ d, Within d cfg.parsed → ¬ IsComment d → d.isMapBlockParameter = false →
      ∃ c args term, CheckedArgs d args ∧ (term = c!"{" ↔ d.block ≠ none) ∧
        analyze d.file ⟨d.directive, d.line, args, d.file, none, none, none, false⟩ term c o = none := by
  intro d hd hcm hp
  obtain ⟨file, inc, c, hn⟩ := Parse_nodes h cfg hc d hd
  have hfile : d.file = file := by
    cases hn <;> simp [fileName, ho]
  obtain ⟨-, args, term, h1, -, h3, h4⟩ := node_checked hn hcm hp
  exact ⟨c, args, term, h1, h3, by rw [hfile] at h4 ⊢; exact h4⟩

/-- A location within a location within a server is checked as `http>location`. -/
example : Parse (exEnv [(c!"/e/a", c!"http{server{location a{location b{if ( x ) {}}} if (y){foo;}}}")]) 3 c!"/e/a" exOpts =
    .ok (okPayload [(c!"/e/a", [blk c!"http" 1 [] [blk c!"server" 1 []
      [blk c!"location" 1 [c!"a"] [blk c!"location" 1 [c!"b"] [blk c!"if" 1 [c!"x"] []]],
       blk c!"if" 1 [c!"y"] [dir c!"foo" 1 []]]]])]) := by
  decide +kernel

/-! ## C27 -/

/-- What stands directly in a map-like block of a file. -/
theorem map_children {env : Env} {fuel : Nat} {filename : Str} {o : ParseOptions} {cs : List Config} {ps' : PS}
    (h : FilesOk env o (env.dir filename) (initPS filename) cs ps') {cfg : Config} (hc : cfg ∈ cs) {blk : Directive} {ds : List Directive}
    (hb : Within blk cfg.parsed) (hbs : blk.block = some ds) (hm : blk.directive ∈ mapBlocks) :
    ∀ d ∈ ds, d.block = none ∧ d.includes = none ∧
      (IsComment d ∨ d.isMapBlockParameter = true ∧ MapArgs blk.directive d.directive d.args.length) := by
  obtain ⟨ctx, hctx⟩ := h.nodes.2 cfg hc
  obtain ⟨c, hat⟩ := within_at hb ctx
  intro d hd
  have hat2 : ∀ {c ctx ds0}, At blk ctx ds0 c → At d ctx ds0 (enter c blk.directive) := by
    intro c ctx ds0 hat
    induction hat with
    | here h => exact .deep h hbs (.here hd)
    | deep h h1 _ ih => exact .deep h h1 ih
  have hn := hctx d _ (hat2 hat)
  have hlast : (enter c blk.directive).getLast? = some blk.directive := by
    unfold enter
    split
    · rename_i hl
      exfalso
      rw [hl.2] at hm
      revert hm; decide
    · simp
  cases hn with
  | comment line text => exact ⟨rfl, rfl, Or.inl ⟨rfl, by simp⟩⟩
  | param t args m hmc ha =>
    have : m = blk.directive := by
      unfold mapCtx at hmc
      rw [hlast] at hmc
      simp only at hmc
      split at hmc
      · exact (Option.some.inj hmc).symm
      · cases hmc
    subst this
    exact ⟨rfl, rfl, Or.inr ⟨rfl, ((C27_decision _ _ _ _ hm).mp ha).2⟩⟩
  | stmt t args term stmt is block hmc =>
    exfalso
    unfold mapCtx at hmc
    rw [hlast] at hmc
    simp only at hmc
    have : (mapBodies.lookup blk.directive).isSome = true := by
      revert hm
      generalize blk.directive = x
      revert x; decide
    rw [this] at hmc; simp at hmc

/-- Nothing changes when there are no includes and no blocks. -/
theorem expands_flat {cs : List Config} {ds out : List Directive} (h : Expands cs ds out)
    (hd : ∀ d ∈ ds, d.block = none ∧ d.includes = none) : out = ds := by
  induction ds generalizing out with
  | nil => cases h; rfl
  | cons d ds ih =>
    obtain ⟨h1, h2⟩ := hd d (by simp)
    cases h with
    | keep hn hb hr =>
      rw [ih hr (fun x hx => hd x (by simp [hx]))]
      rw [h1] at hb
      cases hb
      rw [← h1]
      cases d; rfl
    | incl hi => exact absurd h2 (by
        intro h; exact hi.2 h)

/-- C27.  Whatever stands directly in a map-like block of a payload is a comment or is marked as parameter, has no block, includes
nothing, and has a number of arguments admitted by the block. -/
theorem C27_params {env : Env} {fuel : Nat} {filename : Str} {o : ParseOptions} {p : Payload} (h : Parse env fuel filename o = .ok p)
    {cfg : Config} (hc : cfg ∈ p.config) {blk : Directive} {ds : List Directive} (hb : Within blk cfg.parsed)
    (hbs : blk.block = some ds) (hm : blk.directive ∈ mapBlocks) :
    ∀ d ∈ ds, d.block = none ∧ d.includes = none ∧
      (IsComment d ∨ d.isMapBlockParameter = true ∧ MapArgs blk.directive d.directive d.args.length) := by
  obtain ⟨cs, ps', h1, -, h3, h4⟩ := Parse_ok h
  cases hcomb : o.combineConfigs with
  | false =>
    rw [h3 hcomb] at hc
    exact map_children (fuel := fuel) h1 hc hb hbs hm
  | true =>
    obtain ⟨c0, cs', hcs, -⟩ := h1.ne_nil _ _ rfl
    obtain ⟨out, st, he, -, rfl⟩ := (C35_combined_iff (rawPayload ps' cs) p c0 cs' hcs).mp ⟨_, h4 hcomb⟩
    obtain rfl := List.mem_singleton.mp hc
    obtain ⟨d', e1, e2, e3⟩ := expands_origin he blk hb
    have hw : ∃ c ∈ cs, Within d' c.parsed := by
      rcases e3 with e3 | e3
      · exact ⟨c0, by rw [hcs]; simp, e3⟩
      · exact e3
    obtain ⟨cfg', hc', hd'⟩ := hw
    have hname : d'.directive = blk.directive := by rw [e1]
    rw [hbs] at e2
    generalize hdb : d'.block = b' at e2
    cases e2 with
    | @some ds0 _ he =>
      have hch := map_children (fuel := fuel) h1 hc' hd' hdb (by rw [hname]; exact hm)
      rw [expands_flat he (fun d hd => ⟨(hch d hd).1, (hch d hd).2.1⟩), ← hname]
      exact hch

/-- C27.  A directive marked as parameter stands in a map-like block: in the block of a directive of the same config, or, at
the top of an included file, in the context of that file. -/
theorem C27_marked {env : Env} {fuel : Nat} {filename : Str} {o : ParseOptions} {p : Payload} (h : Parse env fuel filename o = .ok p)
    (ho : o.combineConfigs = false) {i : Nat} {cfg : Config} (hi : p.config[i]? = some cfg) :
    ∃ ctx : List Str, (i = 0 → ctx = []) ∧ ∀ d c, At d ctx cfg.parsed c → d.isMapBlockParameter = true →
      ∃ m ∈ mapBlocks, c.getLast? = some m ∧ MapArgs m d.directive d.args.length := by
  have key : ∀ {env : Env} {o : ParseOptions} {configDir file : Str} {inc : List (Str × Int)} {c : List Str} {d : Directive},
      Node env o configDir file inc c d → d.isMapBlockParameter = true →
      ∃ m ∈ mapBlocks, c.getLast? = some m ∧ MapArgs m d.directive d.args.length := by
    intro env o configDir file inc c d hn hp
    cases hn with
    | comment line text => cases hp
    | stmt => cases hp
    | param t args m hmc ha =>
      unfold mapCtx at hmc
      split at hmc
      · rename_i m' hl
        split at hmc
        · cases hmc
          rename_i hs
          have hm : m ∈ mapBlocks := by
            have : m ∈ mapBodies.map (·.1) := by
              by_contra hn
              rw [assoc_none_iff.mpr hn] at hs; cases hs
            exact this
          exact ⟨m, hm, hl, ((C27_decision _ _ _ _ hm).mp ha).2⟩
        · cases hmc
      · cases hmc
  obtain ⟨cs, ps', h1, -, h3, -⟩ := Parse_ok h
  rw [h3 ho] at hi
  change cs[i]? = some cfg at hi
  cases h1 with
  | nil _ hinc => cases hinc
  | ok _ incl rest data ds toks' ps1 cs _ hinc hopen hr hf =>
    cases i with
    | zero =>
      cases hi
      cases hinc
      exact ⟨[], fun _ => rfl, fun d c hd hp => key (hr.nodes d c hd) hp⟩
    | succ i =>
      obtain ⟨ctx, hctx⟩ := hf.nodes.2 cfg (List.mem_of_getElem? hi)
      exact ⟨ctx, fun h => (by cases h), fun d c hd hp => key (hctx d c hd) hp⟩
  | bad _ incl rest data e toks' ps1 cs _ hinc hopen hr hs hf =>
    cases i with
    | zero =>
      cases hi
      exact ⟨[], fun _ => rfl, fun d c hd => absurd hd at_nil⟩
    | succ i =>
      obtain ⟨ctx, hctx⟩ := hf.nodes.2 cfg (List.mem_of_getElem? hi)
      exact ⟨ctx, fun h => (by cases h), fun d c hd hp => key (hctx d c hd) hp⟩

/-- A file included in a map-like block is not a parameter of it: `include` with one argument is itself taken as a parameter. -/
example : Parse (exEnv [(c!"/e/a", c!"http{map a b{include b; hostnames; c d e;}}"), (c!"/e/b", c!"x y;")]) 3 c!"/e/a" exOpts =
    .ok (badPayload c!"/e/a" 1 (serr c!"invalid number of parameters" c!"/e/a" 1 c!"c d e" c!"map")
      [blk c!"http" 1 [] [blk c!"map" 1 [c!"a", c!"b"] [param c!"include" 1 [c!"b"], param c!"hostnames" 1 []]]]) := by decide +kernel

end Verif
