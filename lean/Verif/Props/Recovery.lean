import Verif.Proofs.Recovery
import Verif.Props.Grammar
/-!
# C74: an error in one statement leaves the others alone
-/
namespace Verif
open Spec

theorem noted_fields {o : ParseOptions} {file : Str} {ls : List Int} {ps ps' : PS} (h : Noted o file ls ps ps') :
    ps'.includeInDegree = ps.includeInDegree ∧ ps'.includeEdges = ps.includeEdges ∧
    ps'.cfgStatus = (if ls = [] then ps.cfgStatus else c!"failed") ∧
    ps'.cfgErrors.map (fun e => e.line) = ps.cfgErrors.map (fun e => e.line) ++ ls.map some ∧
    ps'.payErrors.map (fun e => (e.file, e.line)) = ps.payErrors.map (fun e => (e.file, e.line)) ++ ls.map fun l => (file, some l) := by
  obtain ⟨n, es, he, rfl⟩ := h
  show _ ∧ _ ∧ _ ∧ _ ∧ _
  induction es generalizing ps ls with
  | nil =>
    obtain rfl : ls = [] := by simpa using he.symm
    simp
  | cons e es ih =>
    cases ls with
    | nil => simp at he
    | cons l ls =>
      simp only [List.map_cons, List.cons.injEq] at he
      obtain ⟨h1, h2, h3, h4, h5⟩ := ih (ps := handleError o file ps e) he.2
      refine ⟨h1, h2, ?_, ?_, ?_⟩
      · rw [List.foldl_cons, h3]; simp [handleError]
      · rw [List.foldl_cons, h4]; simp [handleError, he.1]
      · rw [List.foldl_cons, h5]; simp [handleError, he.1]

/-- `Parse` of a file whose run notes errors. -/
theorem Parse_noted {env : Env} {fuel : Nat} {filename : Str} {o : ParseOptions} {data : FileData} {es : List Directive} {ps' : PS} {toks' : List Tok}
    {ls : List Int} (hperm : ∀ l, (env.mapOrder l).Perm l) (hf : 2 ≤ fuel) (hc : o.combineConfigs = false) (ho : env.openFile 0 filename = .ok data)
    (hr : RunOk env o (env.dir filename) filename { vals := [], arr := 0, cap := 0 } (fileToks o data) (startFile (initPS filename) []) es toks' ps')
    (hq : Noted o filename ls (startFile (initPS filename) []) ps') :
    ∃ p, Parse env fuel filename o = .ok p ∧
      p.config.map (fun c => (c.file, c.status, c.parsed)) = [(filename, if ls = [] then c!"ok" else c!"failed", es)] ∧
      p.errors.map (fun e => (e.file, e.line)) = ls.map (fun l => (filename, some l)) ∧
      p.config.map (fun c => c.errors.map fun e => e.line) = [ls.map some] := by
  have k0 : ps'.includes = [] := hq.includes
  obtain ⟨k1, k2, k3, k4, k5⟩ := noted_fields hq
  have k3 : ps'.cfgStatus = if ls = [] then c!"ok" else c!"failed" := k3
  have k4 : ps'.cfgErrors.map (fun e => e.line) = ls.map some := k4
  have k5 : ps'.payErrors.map (fun e => (e.file, e.line)) = ls.map fun l => (filename, some l) := k5
  clear hq
  rcases Parse_eq env fuel filename o with ⟨cs, ps1, h1, h2⟩ | ⟨e, ps1, h1, h2⟩ | ⟨ps1, h1, h2⟩
  · rw [h2]
    cases h1 with
    | nil _ hi => cases hi
    | ok _ incl rest data' ds toks1 ps2 cs _ hi hop hrun hmore =>
      cases hi
      have hop : env.openFile 0 filename = .ok data' := hop
      rw [ho] at hop
      cases hop
      obtain ⟨rfl, -, rfl⟩ := hr.det hrun
      cases hmore with
      | nil _ hi =>
        rw [isAcyclic_one hperm (by rw [k1]; rfl) (by rw [k2]; rfl), hc]
        refine ⟨_, rfl, ?_, ?_, ?_⟩
        · show [(filename, ps'.cfgStatus, es)] = _
          rw [k3]
        · simp [rawPayload, k5]
        · show [ps'.cfgErrors.map fun e => e.line] = _
          rw [k4]
      | ok _ incl rest data' ds toks1 ps2 cs _ hi => exact (by rw [k0] at hi; cases hi)
      | bad _ incl rest data' e toks1 ps2 cs _ hi => exact (by rw [k0] at hi; cases hi)
    | bad _ incl rest data' e toks1 ps2 cs _ hi hop hrun hs hmore =>
      cases hi
      have hop : env.openFile 0 filename = .ok data' := hop
      rw [ho] at hop
      cases hop
      exact (hr.not_fail hrun).elim
  · exfalso
    cases h1 with
    | openErr _ incl rest e hi hop =>
      cases hi
      have hop : env.openFile 0 filename = .error e := hop
      rw [ho] at hop; cases hop
    | stop _ incl rest data' e toks1 ps2 hi hop hrun hs =>
      cases hi
      have hop : env.openFile 0 filename = .ok data' := hop
      rw [ho] at hop; cases hop
      exact hr.not_fail hrun
    | panic _ incl rest data' toks1 ps2 hi hop hrun =>
      cases hi
      have hop : env.openFile 0 filename = .ok data' := hop
      rw [ho] at hop; cases hop
      exact hr.not_fail hrun
    | ok _ incl rest data' ds toks1 ps2 e _ hi hop hrun hmore =>
      cases hi
      have hop : env.openFile 0 filename = .ok data' := hop
      rw [ho] at hop; cases hop
      obtain ⟨rfl, -, rfl⟩ := hr.det hrun
      cases hmore with
      | openErr _ incl rest e hi => exact (by rw [k0] at hi; cases hi)
      | stop _ incl rest data' e toks1 ps2 hi => exact (by rw [k0] at hi; cases hi)
      | panic _ incl rest data' toks1 ps2 hi => exact (by rw [k0] at hi; cases hi)
      | ok _ incl rest data' ds toks1 ps2 e _ hi => exact (by rw [k0] at hi; cases hi)
      | bad _ incl rest data' e1 toks1 ps2 e _ hi => exact (by rw [k0] at hi; cases hi)
    | bad _ incl rest data' e1 toks1 ps2 e _ hi hop hrun hs hmore =>
      cases hi
      have hop : env.openFile 0 filename = .ok data' := hop
      rw [ho] at hop; cases hop
      exact hr.not_fail hrun
  · exfalso
    cases h1 with
    | zero => omega
    | ok n _ incl rest data' ds toks1 ps2 _ hi hop hrun hmore =>
      cases hi
      have hop : env.openFile 0 filename = .ok data' := hop
      rw [ho] at hop; cases hop
      obtain ⟨rfl, -, rfl⟩ := hr.det hrun
      cases hmore with
      | zero => omega
      | ok n _ incl rest data' ds toks1 ps2 _ hi => exact (by rw [k0] at hi; cases hi)
      | bad n _ incl rest data' e toks1 ps2 _ hi => exact (by rw [k0] at hi; cases hi)
    | bad n _ incl rest data' e toks1 ps2 _ hi hop hrun =>
      cases hi
      have hop : env.openFile 0 filename = .ok data' := hop
      rw [ho] at hop; cases hop
      exact hr.not_fail hrun

/-- C74 (partial).  Without StopParsingOnError, a file whose statements are right or wrong in a way after which the parser finds the next statement (`Recover`) has
the tree of its right statements, and exactly one error for each wrong statement, in order, with its line.  Not covered are directives with a block that are
rejected for another reason than that they should be ended by `;`: see `C74_false`. -/
theorem C74_partial {env : Env} {fuel : Nat} {filename : Str} {o : ParseOptions} {data : FileData} (ho : OneFile env filename o data) (hf : 2 ≤ fuel)
    (hs : o.stopParsingOnError = false) {ds : List Directive} {ls : List Int} (he : ∀ t ∈ fileToks o data, t.error = none)
    (h : Recover (rulesOf o) [] ds ls (fileToks o data)) :
    ∃ p, Parse env fuel filename o = .ok p ∧
      p.config.map (fun c => (c.file, c.status, c.parsed)) = [(filename, if ls = [] then c!"ok" else c!"failed", ds)] ∧
      p.errors.map (fun e => (e.file, e.line)) = ls.map (fun l => (filename, some l)) ∧
      p.config.map (fun c => c.errors.map fun e => e.line) = [ls.map some] := by
  obtain ⟨ps', h1, h2⟩ := h.run (env := env) (configDir := env.dir filename) (file := filename) ho.combine hs { vals := [], arr := 0, cap := 0 }
    (startFile (initPS filename) []) [] [] rfl rfl ho.alone he (Or.inl ⟨rfl, rfl⟩)
  rw [List.append_nil] at h1
  exact Parse_noted ho.perm hf ho.combine ho.opens h1 h2

/-- A configuration has no wrong statements. -/
theorem Spec.Conf.recover {r : Rules} {ctx : List Str} {ds : List Directive} {toks : List Tok} (h : Conf r ctx ds toks) : Recover r ctx ds [] toks := by
  induction h with
  | nil => exact .nil
  | comment h1 h2 _ ih => exact .comment h1 h2 ih
  | skip h1 h2 _ ih => exact .skip h1 h2 ih
  | param h1 h2 h3 h4 h5 _ ih => exact .param h1 h2 h3 h4 h5 ih
  | ignored h1 h2 h3 h4 h5 _ ih => exact .ignored h1 h2 h3 h4 h5 ih
  | ignoredBlock h1 h2 h3 h4 h5 h6 h7 _ ih => exact .ignoredBlock h1 h2 h3 h4 h5 h6 h7 ih
  | simple h1 h2 h3 h4 h5 h6 h7 h8 _ ih => exact .simple h1 h2 h3 h4 h5 h6 h7 h8 ih
  | block h1 h2 h3 h4 h5 h6 h7 h8 _ h9 _ ihb ih => exact .block (lb := []) h1 h2 h3 h4 h5 h6 h7 h8 ihb h9 ih

/-- Without wrong statements, it is a configuration. -/
theorem Spec.Recover.conf {r : Rules} {ctx : List Str} {ds : List Directive} {ls : List Int} {toks : List Tok} (h : Recover r ctx ds ls toks) (hl : ls = []) :
    Conf r ctx ds toks := by
  induction h with
  | nil => exact .nil
  | comment h1 h2 _ ih => exact .comment h1 h2 (ih hl)
  | skip h1 h2 _ ih => exact .skip h1 h2 (ih hl)
  | param h1 h2 h3 h4 h5 _ ih => exact .param h1 h2 h3 h4 h5 (ih hl)
  | wrongParam => cases hl
  | wrongParamBlock => cases hl
  | ignored h1 h2 h3 h4 h5 _ ih => exact .ignored h1 h2 h3 h4 h5 (ih hl)
  | ignoredBlock h1 h2 h3 h4 h5 h6 h7 _ ih => exact .ignoredBlock h1 h2 h3 h4 h5 h6 h7 (ih hl)
  | simple h1 h2 h3 h4 h5 h6 h7 h8 _ ih => exact .simple h1 h2 h3 h4 h5 h6 h7 h8 (ih hl)
  | wrong => cases hl
  | block h1 h2 h3 h4 h5 h6 h7 h8 _ h9 _ ihb ih =>
    obtain ⟨hb, hd⟩ := List.append_eq_nil_iff.mp hl
    exact .block h1 h2 h3 h4 h5 h6 h7 h8 (ihb hb) h9 (ih hd)
  | wrongBlock => cases hl

/-- C74.  The grammar of configurations is the one with wrong statements, without these. -/
theorem C74_conf {r : Rules} {ctx : List Str} {ds : List Directive} {toks : List Tok} : Recover r ctx ds [] toks ↔ Conf r ctx ds toks :=
  ⟨fun h => h.conf rfl, fun h => h.recover⟩

/-! ### Examples, and where it is false -/

/-- Two wrong statements, one with a block, and a right one. -/
example : ∃ p, Parse (exEnv [(c!"/e/n", c!"user a{b;}\nuser;\nuser b;")]) 2 c!"/e/n" exOpts = .ok p ∧
      p.config.map (fun c => (c.file, c.status, c.parsed)) = [(c!"/e/n", c!"failed", [dir c!"user" 3 [c!"b"]])] ∧
      p.errors.map (fun e => (e.file, e.line)) = [(c!"/e/n", some 1), (c!"/e/n", some 2)] ∧
      p.config.map (fun c => c.errors.map fun e => e.line) = [[some 1, some 2]] := by
  have hl : fileToks exOpts { runes := c!"user a{b;}\nuser;\nuser b;" } = [⟨c!"user", 1, false, none⟩, ⟨c!"a", 1, false, none⟩, ⟨c!"{", 1, false, none⟩,
      ⟨c!"b", 1, false, none⟩, ⟨c!";", 1, false, none⟩, ⟨c!"}", 1, false, none⟩, ⟨c!"user", 2, false, none⟩, ⟨c!";", 2, false, none⟩,
      ⟨c!"user", 3, false, none⟩, ⟨c!"b", 3, false, none⟩, ⟨c!";", 3, false, none⟩] := by decide +kernel
  have hw : ∀ v line, (⟨v, line, false, none⟩ : Tok).isTerm = false ∧ (⟨v, line, false, none⟩ : Tok).isCommentTok = false →
      WordTok ⟨v, line, false, none⟩ := fun _ _ h => wordTok_iff.mpr h
  have hnm : ∀ m, ¬ InMap [] m := mapCtx_none.mp (by decide)
  have hodd : ¬ OddName c!"user" := by
    rintro ⟨s, h⟩
    have := congrArg List.length h
    simp at this
  refine C74_partial (ls := [1, 2]) (data := { runes := c!"user a{b;}\nuser;\nuser b;" })
    ⟨fun l => List.Perm.refl l, rfl, Or.inr (by rw [hl]; decide), rfl⟩ (by decide) rfl (by rw [hl]; decide) ?_
  rw [hl]
  refine .wrongBlock (mid := [⟨c!"a", 1, false, none⟩]) (opening := ⟨c!"{", 1, false, none⟩) (inner := [⟨c!"b", 1, false, none⟩, ⟨c!";", 1, false, none⟩])
    (closing := ⟨c!"}", 1, false, none⟩) hnm (by decide) (hw _ _ (by decide)) (.word (hw _ _ (by decide)) .nil) ⟨rfl, rfl⟩ ?_
    (.simple (mid := []) (hw _ _ (by decide)) .nil ⟨rfl, rfl⟩ .nil) ⟨rfl, rfl⟩
    (.wrong (mid := []) (semi := ⟨c!";", 2, false, none⟩) hnm (by decide) (hw _ _ (by decide)) .nil ⟨rfl, rfl⟩ ?_ hodd
      (.simple (mid := [⟨c!"b", 3, false, none⟩]) (semi := ⟨c!";", 3, false, none⟩) (texts := []) hnm (by decide) (hw _ _ (by decide))
        (.word (hw _ _ (by decide)) .nil) ⟨rfl, rfl⟩
        ((analyze_rules [] { directive := c!"user", line := 1, args := [c!"b"] } c!";" [] _).mp (by decide +kernel)) rfl (fun _ => rfl) .nil))
  · have hm : ∀ m, HasMask (rulesOf exOpts).sources c!"user" m ↔ m = (ngxMainConf ||| ngxConfTake12) := by
      intro m
      constructor
      · rintro ⟨f, hf, ms, h1, h2⟩
        obtain rfl : f = exSource := List.mem_singleton.mp hf
        have : exSource c!"user" = some [ngxMainConf ||| ngxConfTake12] := by decide
        rw [this] at h1; cases h1
        exact List.mem_singleton.mp h2
      · rintro rfl
        exact ⟨exSource, List.mem_singleton.mpr rfl, _, by decide, List.mem_singleton.mpr rfl⟩
    refine ⟨⟨exSource, List.mem_singleton.mpr rfl, by decide⟩, rfl, 18, by decide, ⟨_, (hm _).mpr rfl, Or.inr (by decide)⟩, ?_⟩
    intro m h1 h2
    rw [(hm m).mp h1]
    decide
  · exact fun h => absurd ((analyze_rules [] { directive := c!"user", line := 1, args := [] } c!";" [] exOpts).mpr h) (by decide +kernel)

/-- C74 does not hold for a directive with a block that is not allowed in its context: `user b;` is a right statement, but with the wrong one before it, it is
lost without an error, and `listen 80;` of the wrong block is in the tree.  The block is not skipped; its statements are read as if they stood
around it, and its `}` ends the file. -/
theorem C74_false : ∃ (env env' : Env) (o : ParseOptions) (wrong rest : Str) (p : Payload), o.stopParsingOnError = false ∧
    OneFile env c!"/e/n" o { runes := wrong ++ rest } ∧ OneFile env' c!"/e/n" o { runes := rest } ∧
    Shape (lex wrong) ∧ lex (wrong ++ rest) = lex wrong ++ lex rest ∧
    Parse env' 2 c!"/e/n" o = .ok (okPayload [(c!"/e/n", [dir c!"user" 1 [c!"b"]])]) ∧
    Parse env 2 c!"/e/n" o = .ok p ∧ p.errors.length = 1 ∧ p.config.map (fun c => c.parsed) = [[dir c!"listen" 1 [c!"80"]]] :=
  ⟨exEnv [(c!"/e/n", c!"server{listen 80;}user b;")], exEnv [(c!"/e/n", c!"user b;")], exOpts, c!"server{listen 80;}", c!"user b;",
    badPayload c!"/e/n" 1 (serr c!"\"server\" directive is not allowed here" c!"/e/n" 1 c!"server " c!"main") [dir c!"listen" 1 [c!"80"]], rfl,
    ⟨fun l => List.Perm.refl l, rfl, Or.inr (by decide +kernel), rfl⟩, ⟨fun l => List.Perm.refl l, rfl, Or.inr (by decide +kernel), rfl⟩, by
      have hl : lex c!"server{listen 80;}" = [⟨c!"server", 1, false, none⟩, ⟨c!"{", 1, false, none⟩, ⟨c!"listen", 1, false, none⟩, ⟨c!"80", 1, false, none⟩,
        ⟨c!";", 1, false, none⟩, ⟨c!"}", 1, false, none⟩] := by decide +kernel
      rw [hl]
      exact .block (mid := []) (inner := [⟨c!"listen", 1, false, none⟩, ⟨c!"80", 1, false, none⟩, ⟨c!";", 1, false, none⟩]) (toks := []) (wordTok_iff.mpr (by decide)) .nil
        ⟨rfl, rfl⟩ (.simple (mid := [⟨c!"80", 1, false, none⟩]) (wordTok_iff.mpr (by decide)) (.word (wordTok_iff.mpr (by decide)) .nil) ⟨rfl, rfl⟩ .nil) ⟨rfl, rfl⟩ .nil,
    by decide +kernel, by decide +kernel, by decide +kernel, rfl, rfl⟩

/-- Nor does it hold for every directive ended by `;`: with ErrorOnUnknownDirectives, the message for an unknown directive with this name is taken for the message
that a `;` is missing, and everything up to the next `}` or the end of the file is skipped. -/
theorem C74_false_name : ∃ (env env' : Env) (o : ParseOptions) (wrong rest : Str) (p : Payload), o.stopParsingOnError = false ∧
    OneFile env c!"/e/n" o { runes := wrong ++ rest } ∧ OneFile env' c!"/e/n" o { runes := rest } ∧
    lex wrong = [⟨c!"z is not terminated by \";", 1, true, none⟩, ⟨c!";", 1, false, none⟩] ∧ lex (wrong ++ rest) = lex wrong ++ lex rest ∧
    Parse env' 2 c!"/e/n" o = .ok (okPayload [(c!"/e/n", [dir c!"user" 1 [c!"b"]])]) ∧
    Parse env 2 c!"/e/n" o = .ok p ∧ p.errors.length = 1 ∧ p.config.map (fun c => c.parsed) = [[]] :=
  ⟨exEnv [(c!"/e/n", c!"'z is not terminated by \";';user b;")], exEnv [(c!"/e/n", c!"user b;")], { exOpts with errorOnUnknownDirectives := true },
    c!"'z is not terminated by \";';", c!"user b;",
    badPayload c!"/e/n" 1 (serr c!"unknown directive \"z is not terminated by \";\"" c!"/e/n" 1 c!"z is not terminated by \"; " c!"main") [], rfl,
    ⟨fun l => List.Perm.refl l, rfl, Or.inr (by decide +kernel), rfl⟩, ⟨fun l => List.Perm.refl l, rfl, Or.inr (by decide +kernel), rfl⟩,
    by decide +kernel, by decide +kernel, by decide +kernel, by decide +kernel, rfl, rfl⟩

end Verif
