import Verif.Proofs.Analyze
/-!
# C24, C25 and the decision part of C27: the statement check
-/
namespace Verif
open Spec

/-! ## C24 -/

/-- C24.  A statement is accepted iff the mask language of `Spec/Masks` accepts it.  Block names must not contain `>` (and
the path must not be a single empty name): `blockCtx.key` does not keep other paths apart (`C56_context_key`). -/
theorem C24_accepts_iff (fname : Str) (stmt : Directive) (term : Str) (ctx : List Str) (o : ParseOptions)
    (hctx : ∀ b ∈ ctx, '>' ∉ b) (hne : ctx ≠ [[]]) :
    analyze fname stmt term ctx o = none ↔
    StmtOk (if o.directiveSources = [] then [defaultDirectivesMatch] else o.directiveSources)
      o.errorOnUnknownDirectives o.skipDirectiveContextCheck o.skipDirectiveArgsCheck (contextBit ctx)
      stmt.directive stmt.args term :=
  analyze_iff fname stmt term ctx o _ (contexts_lookup ⟨hctx, hne⟩)

/-- C24.  A rejection names file, line, statement and innermost block. -/
theorem C24_error_fields {fname : Str} {stmt : Directive} {term : Str} {ctx : List Str} {o : ParseOptions} {e : ParseError}
    (h : analyze fname stmt term ctx o = some e) :
    e.file = some fname ∧ e.line = some stmt.line ∧ e.statement = stmt.string ∧ e.orig = none ∧
    e.blockCtx = (match ctx.getLast? with | none => c!"main" | some b => b) := by
  obtain ⟨w, rfl, -⟩ := analyze_some h
  exact ⟨rfl, rfl, rfl, rfl, rfl⟩

theorem checkMasks_what {stmt : Directive} {term w what : Str} {ms : List Nat} (h : checkMasks stmt term w ms = some what) :
    what = w ∨ (c!"\"" ++ stmt.directive ++ c!"\"") <:+: what := by
  induction ms generalizing w with
  | nil => left; simpa [checkMasks] using h.symm
  | cons m ms ih =>
    have inf : ∀ a b : Str, (c!"\"" ++ stmt.directive ++ c!"\"") <:+: (a ++ (c!"\"" ++ stmt.directive ++ c!"\"") ++ b) :=
      fun a b => ⟨a, b, rfl⟩
    have fin : ∀ w', (c!"\"" ++ stmt.directive ++ c!"\"") <:+: w' → checkMasks stmt term w' ms = some what →
        what = w ∨ (c!"\"" ++ stmt.directive ++ c!"\"") <:+: what := by
      intro w' hw h
      rcases ih h with rfl | h
      · exact Or.inr hw
      · exact Or.inr h
    unfold checkMasks at h
    split at h
    · refine fin _ ?_ h
      have := inf c!"directive " c!"'s is not enclosed in parentheses"
      simpa using this
    · split at h
      · refine fin _ ?_ h
        have := inf c!"directive " c!" has no opening \"{\""
        simpa using this
      · split at h
        · refine fin _ ?_ h
          have := inf c!"directive " c!" is not terminated by \";\""
          simpa using this
        · split at h
          · cases h
          · split at h
            · refine fin _ ?_ h
              have := inf (c!"invalid value \"" ++ stmt.args.headD [] ++ c!"\" in ")
                c!" directive, it must be \"on\" or \"off\""
              simpa using this
            · refine fin _ ?_ h
              have := inf c!"invalid number of arguments in " c!" directive"
              simpa using this

/-- C24.  The message of a rejection contains the quoted name of the directive, except that it is empty when the context check
is skipped and the sources know the directive with an empty list of masks. -/
theorem C24_error_names_directive {fname : Str} {stmt : Directive} {term : Str} {ctx : List Str} {o : ParseOptions}
    {e : ParseError} (h : analyze fname stmt term ctx o = some e) :
    (c!"\"" ++ stmt.directive ++ c!"\"") <:+: e.what ∨
    (e.what = [] ∧ o.skipDirectiveContextCheck = true ∧ lookupMasks o stmt.directive = some []) := by
  obtain ⟨w, rfl, hw⟩ := analyze_some h
  rcases hw with rfl | rfl | ⟨masks, ms, hmasks, hnil, hw⟩
  · left; exact ⟨c!"unknown directive ", [], by simp [stmtError]⟩
  · left; exact ⟨[], c!" directive is not allowed here", by simp [stmtError]⟩
  · cases ms with
    | nil =>
      right
      simp only [checkMasks, Option.some.injEq] at hw
      obtain ⟨h1, rfl⟩ := hnil rfl
      exact ⟨hw.symm, h1, hmasks⟩
    | cons m ms =>
      left
      rcases checkMasks_what hw with rfl | h
      · exfalso
        -- the message is overwritten at the first mask
        unfold checkMasks at hw
        have fin : ∀ w', w' ≠ [] → checkMasks stmt term w' ms = some [] → False := by
          intro w' hw' h
          rcases checkMasks_what h with h | ⟨a, b, h⟩
          · exact hw' h.symm
          · simp at h
        split at hw
        · exact fin _ (by simp) hw
        · split at hw
          · exact fin _ (by simp) hw
          · split at hw
            · exact fin _ (by simp) hw
            · split at hw
              · cases hw
              · split at hw
                · exact fin _ (by simp) hw
                · exact fin _ (by simp) hw
      · exact h

/-- `proxy_pass` with its one mask in http, in a location and outside of one, with too few arguments and without `;`. -/
example : analyze c!"f" ⟨c!"proxy_pass", 3, [c!"x"], [], none, none, none, false⟩ c!";" [c!"http", c!"location"]
      { directiveSources := [fun n => if n = c!"proxy_pass" then some [ngxHTTPLocConf ||| ngxConfTake1] else none] } = none ∧
    (analyze c!"f" ⟨c!"proxy_pass", 3, [c!"x"], [], none, none, none, false⟩ c!";" [c!"http"]
      { directiveSources := [fun n => if n = c!"proxy_pass" then some [ngxHTTPLocConf ||| ngxConfTake1] else none] }).map
        (·.what) = some c!"\"proxy_pass\" directive is not allowed here" ∧
    (analyze c!"f" ⟨c!"proxy_pass", 3, [], [], none, none, none, false⟩ c!";" [c!"http", c!"location"]
      { directiveSources := [fun n => if n = c!"proxy_pass" then some [ngxHTTPLocConf ||| ngxConfTake1] else none] }).map
        (·.what) = some c!"invalid number of arguments in \"proxy_pass\" directive" ∧
    (analyze c!"f" ⟨c!"proxy_pass", 3, [c!"x"], [], none, none, none, false⟩ c!"{" [c!"http", c!"location"]
      { directiveSources := [fun n => if n = c!"proxy_pass" then some [ngxHTTPLocConf ||| ngxConfTake1] else none] }).map
        (·.what) = some c!"directive \"proxy_pass\" is not terminated by \";\"" := by decide

/-! ## C25 -/

/-- C25.  Skipping the context check accepts at least as much. -/
theorem C25_skip_context_accepts_more (fname : Str) (stmt : Directive) (term : Str) (ctx : List Str) (o : ParseOptions)
    (h : analyze fname stmt term ctx { o with skipDirectiveContextCheck := false } = none) :
    analyze fname stmt term ctx { o with skipDirectiveContextCheck := true } = none := by
  obtain ⟨bit, hb⟩ := lookup_bit ctx
  rw [analyze_iff _ _ _ _ _ bit hb] at h ⊢
  refine ⟨h.1, fun b hb hk => ⟨Or.inl rfl, ?_⟩⟩
  obtain ⟨-, h2⟩ := h.2 b hb hk
  rcases h2 with h2 | ⟨m, h3, -, h5⟩
  · exact Or.inl h2
  · exact Or.inr ⟨m, h3, Or.inl rfl, h5⟩

/-- C25.  Skipping the argument check accepts at least as much. -/
theorem C25_skip_args_accepts_more (fname : Str) (stmt : Directive) (term : Str) (ctx : List Str) (o : ParseOptions)
    (h : analyze fname stmt term ctx { o with skipDirectiveArgsCheck := false } = none) :
    analyze fname stmt term ctx { o with skipDirectiveArgsCheck := true } = none := by
  obtain ⟨bit, hb⟩ := lookup_bit ctx
  rw [analyze_iff _ _ _ _ _ bit hb] at h ⊢
  exact ⟨h.1, fun b hb hk => ⟨(h.2 b hb hk).1, Or.inl rfl⟩⟩

/-- C25.  With both checks skipped every statement is accepted, unless unknown directives are to be rejected. -/
theorem C25_skip_all (fname : Str) (stmt : Directive) (term : Str) (ctx : List Str) (o : ParseOptions)
    (h1 : o.skipDirectiveContextCheck = true) (h2 : o.skipDirectiveArgsCheck = true)
    (h3 : o.errorOnUnknownDirectives = false) : analyze fname stmt term ctx o = none := by
  obtain ⟨bit, hb⟩ := lookup_bit ctx
  rw [analyze_iff _ _ _ _ _ bit hb]
  exact ⟨by simp [h3], fun b _ _ => ⟨Or.inl h1, Or.inl h2⟩⟩

/-- C25.  Whether a statement is accepted depends on the sources only through which names they know and which masks they
have: not on their order, on the order of masks, or on duplicates. -/
theorem C25_source_order (fname : Str) (stmt : Directive) (term : Str) (ctx : List Str) (o : ParseOptions)
    (fs gs : List MatchFunc)
    (hfg : ∀ f ∈ fs, ∃ g ∈ gs, (f stmt.directive).isSome = (g stmt.directive).isSome ∧
      ∀ m, m ∈ (f stmt.directive).getD [] → m ∈ (g stmt.directive).getD [])
    (hgf : ∀ g ∈ gs, ∃ f ∈ fs, (g stmt.directive).isSome = (f stmt.directive).isSome ∧
      ∀ m, m ∈ (g stmt.directive).getD [] → m ∈ (f stmt.directive).getD []) :
    analyze fname stmt term ctx { o with directiveSources := fs } = none ↔
    analyze fname stmt term ctx { o with directiveSources := gs } = none := by
  have mono : ∀ fs gs : List MatchFunc, (∀ f ∈ fs, ∃ g ∈ gs, (f stmt.directive).isSome = (g stmt.directive).isSome ∧
      ∀ m, m ∈ (f stmt.directive).getD [] → m ∈ (g stmt.directive).getD []) →
      (Known fs stmt.directive → Known gs stmt.directive) ∧
      ∀ m, HasMask fs stmt.directive m → HasMask gs stmt.directive m := by
    intro fs gs h
    constructor
    · rintro ⟨f, hf, hs⟩
      obtain ⟨g, hg, h1, -⟩ := h f hf
      exact ⟨g, hg, by rw [← h1, hs]⟩
    · rintro m ⟨f, hf, ms, hs, hm⟩
      obtain ⟨g, hg, h1, h2⟩ := h f hf
      have := h2 m (by simpa [hs] using hm)
      cases hgn : g stmt.directive with
      | none => simp [hgn] at this
      | some ms' => exact ⟨g, hg, ms', hgn, by simpa [hgn] using this⟩
  have hnil : fs = [] ↔ gs = [] := by
    constructor
    · rintro rfl
      cases gs with
      | nil => rfl
      | cons g gs => obtain ⟨f, hf, -⟩ := hgf g (by simp); simp at hf
    · rintro rfl
      cases fs with
      | nil => rfl
      | cons g gs => obtain ⟨f, hf, -⟩ := hfg g (by simp); simp at hf
  obtain ⟨bit, hb⟩ := lookup_bit ctx
  rw [analyze_iff _ _ _ _ _ bit hb, analyze_iff _ _ _ _ _ bit hb]
  unfold sourcesOf
  by_cases h : fs = []
  · rw [if_pos h, if_pos (hnil.mp h)]
  · have h' : ¬ gs = [] := fun e => h (hnil.mpr e)
    simp only [if_neg h, if_neg h']
    obtain ⟨a1, a2⟩ := mono fs gs hfg
    obtain ⟨b1, b2⟩ := mono gs fs hgf
    have hk : Known fs stmt.directive ↔ Known gs stmt.directive := ⟨a1, b1⟩
    have hm : ∀ m, HasMask fs stmt.directive m ↔ HasMask gs stmt.directive m := fun m => ⟨a2 m, b2 m⟩
    unfold StmtOk
    simp only [hk, hm]

/-- C25.  In particular permuting the sources does not change acceptance. -/
theorem C25_source_permutation (fname : Str) (stmt : Directive) (term : Str) (ctx : List Str) (o : ParseOptions)
    (fs gs : List MatchFunc) (h : fs.Perm gs) :
    analyze fname stmt term ctx { o with directiveSources := fs } = none ↔
    analyze fname stmt term ctx { o with directiveSources := gs } = none :=
  C25_source_order fname stmt term ctx o fs gs (fun f hf => ⟨f, h.mem_iff.mp hf, rfl, fun _ h => h⟩)
    (fun f hf => ⟨f, h.mem_iff.mpr hf, rfl, fun _ h => h⟩)

/-- The reported message does depend on the order of the sources. -/
example : ((analyze c!"f" ⟨c!"a", 1, [], [], none, none, none, false⟩ c!";" []
      { directiveSources := [fun _ => some [ngxMainConf ||| ngxConfBlock], fun _ => some [ngxMainConf ||| ngxConfTake1]] }).map
        (·.what) = some c!"invalid number of arguments in \"a\" directive") ∧
    ((analyze c!"f" ⟨c!"a", 1, [], [], none, none, none, false⟩ c!";" []
      { directiveSources := [fun _ => some [ngxMainConf ||| ngxConfTake1], fun _ => some [ngxMainConf ||| ngxConfBlock]] }).map
        (·.what) = some c!"directive \"a\" has no opening \"{\"") := by decide

/-! ## C56: the context key -/

/-- C56.  `blockCtx.key` does not keep a block named `a>b` and a block `b` inside `a` apart: statements in the two are
accepted alike. -/
theorem C56_context_key (fname : Str) (stmt : Directive) (term : Str) (pre post : List Str) (a b : Str) (o : ParseOptions) :
    analyze fname stmt term (pre ++ (a ++ '>' :: b) :: post) o = none ↔
    analyze fname stmt term (pre ++ a :: b :: post) o = none := by
  have : ctxKey (pre ++ (a ++ '>' :: b) :: post) = ctxKey (pre ++ a :: b :: post) := by
    induction pre with
    | nil =>
      cases post with
      | nil => simp [ctxKey, joinStr]
      | cons c post => simp only [List.nil_append, ctxKey_cons]; simp
    | cons p pre ih =>
      cases pre with
      | nil => simp only [List.cons_append, List.nil_append] at ih ⊢; rw [ctxKey_cons, ih, ctxKey_cons p]
      | cons q pre => simp only [List.cons_append] at ih ⊢; rw [ctxKey_cons, ih, ctxKey_cons p]
  obtain ⟨bit, hb⟩ := lookup_bit (pre ++ a :: b :: post)
  rw [analyze_iff _ _ _ _ _ bit hb, analyze_iff _ _ _ _ _ bit (this ▸ hb)]

/-- A server directive is accepted in an (unknown) top-level block `http>server`. -/
example : analyze c!"f" ⟨c!"listen", 1, [c!"80"], [], none, none, none, false⟩ c!";" [c!"http>server"]
      { directiveSources := [fun _ => some [ngxHTTPSrvConf ||| ngxConfTake1]] } = none ∧
    contextBit [c!"http>server"] = none := by decide

/-! ## C27, the decision -/

/-- C27.  A statement inside a map-like block is accepted iff it ends in `;` and has a number of arguments the block admits. -/
theorem C27_decision (fname : Str) (d : Directive) (term blk : Str) (h : blk ∈ mapBlocks) :
    analyzeMapBody fname d term blk = none ↔ term = c!";" ∧ MapArgs blk d.directive d.args.length := by
  simp only [mapBlocks, List.mem_cons, List.not_mem_nil, or_false] at h
  rcases h with rfl | rfl | rfl | rfl | rfl | rfl | rfl | rfl
  · rw [analyzeMapBody_iff (masks := ⟨[], ngxConfTake1⟩) (by decide)]
    simp [MapArgs, argsOk_take1]
  · rw [analyzeMapBody_iff (masks := ⟨[(c!"ranges", ngxConfNoArgs), (c!"proxy_recursive", ngxConfNoArgs)], ngxConfTake1⟩)
      (by decide)]
    by_cases h1 : d.directive = c!"ranges"
    · simp [MapArgs, h1, argsOk_noArgs]
    · by_cases h2 : d.directive = c!"proxy_recursive"
      · simp [MapArgs, h2, argsOk_noArgs, List.lookup_cons, beq_false_of_ne]
      · simp [MapArgs, h1, h2, argsOk_take1, List.lookup_cons, beq_false_of_ne]
  · rw [analyzeMapBody_iff (masks := ⟨[(c!"volatile", ngxConfNoArgs), (c!"hostnames", ngxConfNoArgs)], ngxConfTake1⟩)
      (by decide)]
    by_cases h1 : d.directive = c!"volatile"
    · simp [MapArgs, h1, argsOk_noArgs]
    · by_cases h2 : d.directive = c!"hostnames"
      · simp [MapArgs, h2, argsOk_noArgs, List.lookup_cons, beq_false_of_ne]
      · simp [MapArgs, h1, h2, argsOk_take1, List.lookup_cons, beq_false_of_ne]
  · rw [analyzeMapBody_iff (masks := ⟨[], ngxConf1More⟩) (by decide)]
    simp [MapArgs, argsOk_1more]
  · rw [analyzeMapBody_iff (masks := ⟨[], ngxConf1More⟩) (by decide)]
    simp [MapArgs, argsOk_1more]
  · rw [analyzeMapBody_iff (masks := ⟨[], ngxConfTake1⟩) (by decide)]
    simp [MapArgs, argsOk_take1]
  · rw [analyzeMapBody_iff (masks := ⟨[(c!"auto_reload", ngxConfTake1)], ngxConf1More⟩) (by decide)]
    by_cases h1 : d.directive = c!"auto_reload"
    · simp [MapArgs, h1, argsOk_take1]
    · simp [MapArgs, h1, argsOk_1more, List.lookup_cons, beq_false_of_ne]
  · rw [analyzeMapBody_iff (masks := ⟨[], ngxConfTake1⟩) (by decide)]
    simp [MapArgs, argsOk_take1]

/-- C27.  A statement rejected inside a map-like block gives an error with file, line, statement and the block. -/
theorem C27_error_fields {fname : Str} {d : Directive} {term blk : Str} {e : ParseError}
    (h : analyzeMapBody fname d term blk = some e) :
    e.file = some fname ∧ e.line = some d.line ∧ e.statement = d.string ∧ e.blockCtx = blk ∧ e.orig = none ∧
    (e.what = c!"unexpected \"" ++ term ++ c!"\"" ∧ term ≠ c!";" ∨
     e.what = c!"invalid number of parameters" ∧ term = c!";") := by
  unfold analyzeMapBody at h
  split at h
  · cases h
  · split at h
    · obtain rfl := Option.some.inj h
      rename_i ht
      exact ⟨rfl, rfl, rfl, rfl, rfl, Or.inl ⟨rfl, by simpa using ht⟩⟩
    · rename_i ht
      have ht : term = c!";" := by simpa using ht
      repeat' split at h
      all_goals first
        | cases h; done
        | (obtain rfl := Option.some.inj h; exact ⟨rfl, rfl, rfl, rfl, rfl, Or.inr ⟨rfl, ht⟩⟩)

example : analyzeMapBody c!"f" ⟨c!"default", 1, [c!"0"], [], none, none, none, false⟩ c!";" c!"map" = none ∧
    (analyzeMapBody c!"f" ⟨c!"volatile", 1, [c!"0"], [], none, none, none, false⟩ c!";" c!"map").map (·.what) =
      some c!"invalid number of parameters" ∧
    (analyzeMapBody c!"f" ⟨c!"a", 1, [c!"0"], [], none, none, none, false⟩ c!"{" c!"types").map (·.what) =
      some c!"unexpected \"{\"" := by decide

end Verif
