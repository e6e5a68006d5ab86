import Verif.Proofs.Placement
import Verif.Props.Refile
/-!
# C29, C68: the contexts of the files of a payload; combined configurations as files of their own
-/
namespace Verif
open Spec

/-- **C29** (partial), **C26**, in terms of the payload.  Every config was parsed in a context: in it, its directives were accepted in the blocks they stand in.  The
context of the first config is empty.  Any other config is named by an include directive of an earlier config (unless the tree of a config before it was given up), and its context
is the one of this directive, as far as C29 goes. -/
theorem C29_payload_partial {env : Env} {fuel : Nat} {filename : Str} {o : ParseOptions} {p : Payload} (h : Parse env fuel filename o = .ok p)
    (ho : o.combineConfigs = false) :
    ∃ ctxOf : Nat → List Str, ctxOf 0 = [] ∧
      (∀ i cfg, p.config[i]? = some cfg → ∀ d c, At d (ctxOf i) cfg.parsed c → ¬ IsComment d → d.isMapBlockParameter = false →
        ∃ args term, CheckedArgs d args ∧ (term = c!";" ∨ term = c!"{" ∨ term = c!"}") ∧ (term = c!"{" ↔ d.block ≠ none) ∧
          analyze cfg.file ⟨d.directive, d.line, args, d.file, none, none, none, false⟩ term c o = none) ∧
      ∀ j, 0 < j → j < p.config.length → ∃ i cfg, i < j ∧ p.config[i]? = some cfg ∧ ((cfg.errors ≠ [] ∧ cfg.parsed = []) ∨
        ∃ d c, At d (ctxOf i) cfg.parsed c ∧ IsInclude d ∧ (j : Int) ∈ d.includes.getD [] ∧ (ctxOf j).length = c.length ∧
          (∀ n ≤ c.length, Fresh n → (ctxOf j).take n = c.take n) ∧ (Fresh c.length → ctxOf j = c)) := by
  obtain ⟨cs, ps', h1, -, h3, -⟩ := Parse_ok h
  obtain rfl := h3 ho
  obtain ⟨ctxOf, hx⟩ := h1.ctxOf
  refine ⟨ctxOf, hx.main, ?_, ?_⟩
  · intro i cfg hi d c hd hc hp
    exact (node_checked (hx.node hi d c hd) hc hp).2
  · intro j h4 h5
    obtain ⟨i, cfg, h6, h7, h8⟩ := hx.from' h4 h5
    refine ⟨i, cfg, h6, h7, ?_⟩
    rcases h8 with h8 | ⟨d, c, a1, a2, a3, a4⟩
    · exact Or.inl h8
    · exact Or.inr ⟨d, c, a1, a2, a3, a4.1, a4.2, a4.eq⟩

/-- The include directives of every config of a payload stand in one context. -/
def OneContext (cs : List Config) : Prop := ∀ i c c', Stands cs i c → Stands cs i c' → c = c'

/-- The directives of the combined configuration are those of the configs, each in the context it was parsed in. -/
theorem FilesOk.combined_nodes {env : Env} {o : ParseOptions} {configDir filename : Str} {ps' : PS} {c0 : Config} {rest : List Config}
    (h : FilesOk env o configDir (initPS filename) (c0 :: rest) ps') (herr : ps'.payErrors = []) (hone : OneContext (c0 :: rest))
    (hdepth : ∀ i c, Stands (c0 :: rest) i c → Fresh c.length) {out : List Directive} (he : Expands (c0 :: rest) c0.parsed out) :
    ∀ d c, At d [] out c → ∃ d' b file, Node env o configDir file ps'.included c d' ∧ ¬ IsInclude d' ∧ d = { d' with block := b } ∧ (b = none ↔ d'.block = none) ∧
      ∃ s ds, Within d' ds ∧ ShapeOf (lexWith (extLexersOf o.lexers) s) ds := by
  obtain ⟨ctxOf, hx⟩ := h.ctxOf
  have hclean : ∀ cfg ∈ c0 :: rest, cfg.errors = [] := by
    have := h.errs.1
    rw [herr] at this
    intro cfg hc
    by_contra hne
    cases hce : cfg.errors with
    | nil => exact hne hce
    | cons e es =>
      have hm : tagError cfg.file e ∈ (c0 :: rest).flatMap (fun c => c.errors.map (tagError c.file)) :=
        List.mem_flatMap.mpr ⟨cfg, hc, by rw [hce]; simp⟩
      have h2 : [] = (c0 :: rest).flatMap (fun c => c.errors.map (tagError c.file)) := this
      rw [← h2] at hm
      cases hm
  have hst := hx.stands hclean hdepth
  intro d c hd
  obtain ⟨d', b, ⟨i, ctx, cfg, h1, h2, h3⟩, h4, h5, h6⟩ := expands_at he (fun d c hd => ⟨0, [], c0, .main, rfl, hd⟩) d c hd
  have hi := (List.getElem?_eq_some_iff.mp h2).1
  obtain rfl := hone i _ _ h1 (hst i hi)
  obtain ⟨s, hs⟩ := hx.shape h2
  exact ⟨d', b, cfg.file, hx.node h2 d' c h3, h4, h5, h6, s, cfg.parsed, at_within h3, hs⟩

/-- The directives of a combined configuration are accepted where they stand. -/
theorem FilesOk.combined_accepts {env : Env} {o : ParseOptions} {configDir filename : Str} {ps' : PS} {c0 : Config} {rest : List Config}
    (h : FilesOk env o configDir (initPS filename) (c0 :: rest) ps') (herr : ps'.payErrors = []) (hone : OneContext (c0 :: rest))
    (hdepth : ∀ i c, Stands (c0 :: rest) i c → Fresh c.length) (hmask : ∀ m, HasMask (sources o) c!"if" m → m.testBit 11 = true ∨ m.testBit 12 = true)
    {out : List Directive} (he : Expands (c0 :: rest) c0.parsed out)
    (hif : ∀ d, Within d out → d.directive = c!"if" → ∃ a as, d.args = a :: as ∧ a ≠ [])
    (hparam : ∀ d, Within d out → d.isMapBlockParameter = true → d.directive ≠ c!"if") : Accepts needsQuote o [] out := by
  intro d c hd hcm
  obtain ⟨d', b, file, hn, -, rfl, hb, -⟩ := h.combined_nodes herr hone hdepth he d c hd
  obtain ⟨h1, h2⟩ := node_accepts hn hcm (hif { d' with block := b } (at_within hd)) hmask (hparam { d' with block := b } (at_within hd))
  have hterm : termOf { d' with block := b } = termOf d' := by
    unfold termOf
    by_cases hn : b = none
    · rw [if_pos hn, if_pos (hb.mp hn)]
    · rw [if_neg hn, if_neg (fun e => hn (hb.mpr e))]
  refine ⟨fun m hm => ?_, fun hm => ?_⟩
  · obtain ⟨a1, a2, a3⟩ := h1 m hm
    exact ⟨a1, hb.mpr a2, a3⟩
  · rw [hterm]
    exact h2 hm

/-- **C68** (partial).  A payload that was parsed without errors and in which every file is included in one context only can be combined and written into one
file: built with any indentation, tabs and header and parsed again, it gives the combined directives.  (The conditions on the combined tree are those of C41 and
C42; the files are included at the depths at which C29 holds; include patterns without matches stay include directives, which SingleFile leaves alone.) -/
theorem C68_partial (isPrint : Char → Bool) (bo : BuildOptions) {env : Env} {fuel : Nat} {filename : Str} {o : ParseOptions} {p : Payload}
    (hparse : Parse env fuel filename o = .ok p) (herrors : p.errors = []) (hcombine : o.combineConfigs = false) (hcomments : o.parseComments = true)
    (hlexers : o.lexers = []) (hmask : ∀ m, HasMask (sources o) c!"if" m → m.testBit 11 = true ∨ m.testBit 12 = true)
    (hone : OneContext p.config) (hdepth : ∀ i c, Stands p.config i c → Fresh c.length)
    {fuel1 : Nat} {q : Payload} (hq : combined fuel1 p = .ok q) {cfg : Config} (hc : q.config = [cfg]) (hbuildable : Rebuildable isPrint bo cfg.parsed)
    {single : Bool} (hincl : single = true ∨ ∀ d, Within d cfg.parsed → d.directive = c!"include" → d.isMapBlockParameter = true)
    (hindent : 0 ≤ bo.indent) {data : FileData} (hbuild : buildText isPrint cfg bo = some data.runes)
    {env' : Env} (hperm : ∀ l, (env'.mapOrder l).Perm l) {fuel' : Nat} (hfuel : 2 ≤ fuel') {filename' : Str} (hopen : env'.openFile 0 filename' = .ok data) :
    ∃ es, Parse env' fuel' filename' { o with singleFile := single } = .ok (okPayload [(filename', es)]) ∧ Same (headerDirs bo ++ cfg.parsed) es := by
  obtain ⟨cs, ps', h1, -, h3, -⟩ := Parse_ok hparse
  obtain rfl := h3 hcombine
  obtain ⟨c0, rest, rfl, -⟩ := h1.ne_nil _ _ rfl
  obtain ⟨out, st, h4, -, rfl⟩ := (C35_combined_iff (rawPayload ps' (c0 :: rest)) q c0 rest rfl).mp ⟨fuel1, hq⟩
  cases hc
  have hif : ∀ d, Within d out → d.directive = c!"if" → ∃ a as, d.args = a :: as ∧ a ≠ [] := by
    intro d hd hi
    refine (hbuildable.head d hd ?_).ifCons hi
    rintro ⟨h, -⟩
    rw [hi] at h; revert h; decide
  have hacc := h1.combined_accepts herrors hone hdepth hmask h4 hif hbuildable.param
  have hnodes := h1.combined_nodes herrors hone hdepth h4
  refine C41_partial isPrint bo _ env' fuel' filename' { o with singleFile := single } data hindent hbuild ?_ hbuildable.apart ?_ hbuildable.builder hperm hfuel hopen
    hcombine hcomments hlexers
  · intro d hd
    obtain ⟨c, hat⟩ := within_at hd []
    obtain ⟨d', b, file, -, -, rfl, hb, s, ds, hw, hs⟩ := hnodes d c hat
    rw [hlexers] at hs
    rcases hs d' hw with ⟨a1, a2, a3, t, a4, a5⟩ | ⟨a1, a2⟩
    · exact Or.inl ⟨a1, a2, hb.mpr a3, lex_commentText a4 a5⟩
    · exact Or.inr ⟨a1, a2, hbuildable.head _ hd a1⟩
  · intro d c hd hcm
    obtain ⟨a1, a2⟩ := hacc d c hd hcm
    refine ⟨a1, fun hm => ?_⟩
    obtain ⟨a3, a4⟩ := a2 hm
    refine ⟨a3, ?_, a4⟩
    rcases hincl with h | h
    · exact Or.inl h
    · right
      intro hinc
      have hp := h d (at_within hd) hinc
      obtain ⟨d', b, file, hn, -, rfl, -⟩ := hnodes d c hd
      cases hn with
      | comment => cases hp
      | param t args m h1 => exact absurd ((mapCtx_eq _ _).mp h1) (hm m)
      | stmt => cases hp

/-! ## Examples -/

mutual
/-- All directives of a tree with their contexts. -/
def everyAt (ctx : List Str) : List Directive → List (Directive × List Str)
  | [] => []
  | d :: ds => (d, ctx) :: (everyAtInner ctx d ++ everyAt ctx ds)
def everyAtInner (ctx : List Str) : Directive → List (Directive × List Str)
  | ⟨n, _, _, _, _, b, _, _⟩ => everyAtBlock (enter ctx n) b
def everyAtBlock (ctx : List Str) : Option (List Directive) → List (Directive × List Str)
  | none => []
  | some b => everyAt ctx b
end

theorem everyAtInner_eq (ctx : List Str) (d : Directive) : everyAtInner ctx d = everyAtBlock (enter ctx d.directive) d.block := by cases d; rfl

theorem at_everyAt {d : Directive} {ctx c : List Str} {ds : List Directive} (h : At d ctx ds c) : (d, c) ∈ everyAt ctx ds := by
  induction h with
  | @here ctx ds h =>
    induction ds with
    | nil => cases h
    | cons x ds ih =>
      rw [everyAt]
      rcases List.mem_cons.mp h with rfl | h
      · simp
      · simp [ih h]
  | @deep ctx ds d' b c hm hb h ih =>
    clear h
    induction ds with
    | nil => cases hm
    | cons x ds ih2 =>
      rw [everyAt, everyAtInner_eq]
      rcases List.mem_cons.mp hm with rfl | hm
      · rw [hb]; simp [everyAtBlock, ih]
      · simp [ih2 hm]

/-- A list of places that has the main file and all files included from its places. -/
def closedPlaces (cs : List Config) (S : List (Nat × List Str)) : Bool :=
  S.contains (0, []) && S.all fun x => match cs[x.1]? with
    | none => true
    | some cfg => (everyAt x.2 cfg.parsed).all fun y => y.1.directive != c!"include" || (y.1.includes.getD []).all fun j => S.contains (j.toNat, y.2)

theorem stands_closed {cs : List Config} {S : List (Nat × List Str)} (h : closedPlaces cs S = true) {i : Nat} {c : List Str} (hs : Stands cs i c) : (i, c) ∈ S := by
  rw [closedPlaces, Bool.and_eq_true, List.all_eq_true] at h
  induction hs with
  | main => simpa using h.1
  | @incl i j ctx c cfg d hs hi hd hinc hj ih =>
    have := h.2 _ ih
    simp only [hi, List.all_eq_true] at this
    have := this _ (at_everyAt hd)
    simp only [hinc.1, bne_self_eq_false, Bool.false_or, List.all_eq_true] at this
    simpa using this _ hj

/-- A file with a server, included from http. -/
def exCombEnv : Env := exEnv [(c!"/e/m", c!"http{ # a\ninclude /e/s; map a b { include c; }\n}\nuser x; # b"), (c!"/e/s", c!"\n# c\nserver { location / { if ($a) { }\n} }")]

def exCombMain : List Directive :=
  [blk c!"http" 1 [] [{ dir c!"#" 1 [] with comment := some c!" a" }, incl 2 c!"/e/s" [1], blk c!"map" 2 [c!"a", c!"b"] [param c!"include" 2 [c!"c"]]],
    dir c!"user" 4 [c!"x"], { dir c!"#" 4 [] with comment := some c!" b" }]

def exCombSub : List Directive :=
  [{ dir c!"#" 2 [] with comment := some c!" c" }, blk c!"server" 3 [] [blk c!"location" 3 [c!"/"] [blk c!"if" 3 [c!"$a"] []]]]

/-- The combined directives. -/
def exCombTree : List Directive :=
  [blk c!"http" 1 [] [{ dir c!"#" 1 [] with comment := some c!" a" }, { dir c!"#" 2 [] with comment := some c!" c" },
      blk c!"server" 3 [] [blk c!"location" 3 [c!"/"] [blk c!"if" 3 [c!"$a"] []]], blk c!"map" 2 [c!"a", c!"b"] [param c!"include" 2 [c!"c"]]],
    dir c!"user" 4 [c!"x"], { dir c!"#" 4 [] with comment := some c!" b" }]

theorem exComb_parse : Parse exCombEnv 5 c!"/e/m" exOptsC = .ok (okPayload [(c!"/e/m", exCombMain), (c!"/e/s", exCombSub)]) := by decide +kernel

theorem exComb_combined : combined 20 (okPayload [(c!"/e/m", exCombMain), (c!"/e/s", exCombSub)]) = .ok (okPayload [(c!"/e/m", exCombTree)]) := by decide +kernel

theorem exComb_stands {i : Nat} {c : List Str} (h : Stands (okPayload [(c!"/e/m", exCombMain), (c!"/e/s", exCombSub)]).config i c) : i = 0 ∧ c = [] ∨ i = 1 ∧ c = [c!"http"] := by
  have := stands_closed (S := [(0, []), (1, [c!"http"])]) (by decide +kernel) h
  simpa using this

example : ∃ es, Parse (exEnv [(c!"/e/n", fullText exPrint { indent := 2, header := true } { file := c!"/e/m", status := c!"ok", parsed := exCombTree })]) 2 c!"/e/n" exOptsC =
    .ok (okPayload [(c!"/e/n", es)]) ∧ Same (headerDirs { indent := 2, header := true } ++ exCombTree) es := by
  refine C68_partial exPrint { indent := 2, header := true } (single := false) exComb_parse rfl rfl rfl rfl exOptsC_if ?_ ?_ exComb_combined rfl
    (rebuildable_plain rfl (fun _ => rfl) (by decide +kernel) (by decide +kernel)) (Or.inr ?_) (by decide)
    (data := { runes := fullText exPrint { indent := 2, header := true } { file := c!"/e/m", status := c!"ok", parsed := exCombTree } }) (by decide +kernel)
    (fun _ => List.Perm.refl _) (Nat.le_refl 2) rfl
  · intro i c c' h h'
    rcases exComb_stands h with ⟨rfl, rfl⟩ | ⟨rfl, rfl⟩ <;> rcases exComb_stands h' with ⟨h1, rfl⟩ | ⟨h1, rfl⟩
    · rfl
    · cases h1
    · cases h1
    · rfl
  · intro i c h
    rcases exComb_stands h with ⟨-, rfl⟩ | ⟨-, rfl⟩ <;> exact Or.inl (by decide)
  · have h : (everyDir exCombTree).all (fun d => d.directive != c!"include" || d.isMapBlockParameter) = true := by decide +kernel
    intro d hd hi
    have := (List.all_eq_true.mp h) d (within_everyDir hd)
    simpa [hi] using this

/-- The contexts of this payload. -/
example : ∃ ctxOf : Nat → List Str, ctxOf 0 = [] ∧ ctxOf 1 = [c!"http"] ∧ ∀ d c, At d [c!"http"] exCombSub c → ¬ IsComment d → d.isMapBlockParameter = false →
    ∃ args term, CheckedArgs d args ∧ (term = c!";" ∨ term = c!"{" ∨ term = c!"}") ∧ (term = c!"{" ↔ d.block ≠ none) ∧
      analyze c!"/e/s" ⟨d.directive, d.line, args, d.file, none, none, none, false⟩ term c exOptsC = none := by
  obtain ⟨ctxOf, h1, h2, h3⟩ := C29_payload_partial exComb_parse rfl
  have h4 : ctxOf 1 = [c!"http"] := by
    obtain ⟨i, cfg, hi, h5, h6⟩ := h3 1 (by decide) (by decide)
    obtain rfl : i = 0 := by omega
    cases h5
    rcases h6 with h6 | ⟨d, c, h6, h7, h8, h9, h10, h11⟩
    · exact absurd rfl h6.1
    · rw [h1] at h6
      have h := at_everyAt h6
      have h12 : (everyAt [] exCombMain).all (fun y => y.1.includes.isNone || y.2 == [c!"http"]) = true := by decide +kernel
      have h13 := (List.all_eq_true.mp h12) _ h
      have h14 : c = [c!"http"] := by
        rw [Bool.or_eq_true] at h13
        rcases h13 with h13 | h13
        · exact absurd (Option.isNone_iff_eq_none.mp h13) h7.2
        · exact eq_of_beq h13
      rw [h14] at h11
      exact h11 (Or.inl (by decide))
  refine ⟨ctxOf, h1, h4, ?_⟩
  have := h2 1 _ rfl
  rw [h4] at this
  exact this

/-! ## Where it fails -/

/-- **C68** fails of the code for files that are included in two contexts: a file is parsed once, in the context of its first include, so a payload without
errors may be combined into a configuration that is rejected. -/
theorem C68_false_twice : ∃ (env : Env) (p q : Payload) (cfg : Config) (text : Str) (bad : Payload),
    Parse env 5 c!"/e/m" exOpts = .ok p ∧ p.status = c!"ok" ∧ p.errors = [] ∧ combined 20 p = .ok q ∧ q.config = [cfg] ∧ buildText exPrint cfg {} = some text ∧
      Parse (exEnv [(c!"/e/n", text)]) 5 c!"/e/n" exOpts = .ok bad ∧ bad.status = c!"failed" :=
  ⟨exEnv [(c!"/e/m", c!"http { include /e/s; server { include /e/s; } }"), (c!"/e/s", c!"server { }")],
    okPayload [(c!"/e/m", [blk c!"http" 1 [] [incl 1 c!"/e/s" [1], blk c!"server" 1 [] [incl 1 c!"/e/s" [1]]]]), (c!"/e/s", [blk c!"server" 1 [] []])],
    okPayload [(c!"/e/m", [blk c!"http" 1 [] [blk c!"server" 1 [] [], blk c!"server" 1 [] [blk c!"server" 1 [] []]]])],
    { file := c!"/e/m", status := c!"ok", parsed := [blk c!"http" 1 [] [blk c!"server" 1 [] [], blk c!"server" 1 [] [blk c!"server" 1 [] []]]] },
    c!"http {\n    server {\n    }\n    server {\n        server {\n        }\n    }\n}",
    badPayload c!"/e/n" 5 (serr c!"\"server\" directive is not allowed here" c!"/e/n" 5 c!"server " c!"server")
      [blk c!"http" 1 [] [blk c!"server" 2 [] [], blk c!"server" 4 [] []]], by decide +kernel⟩

/-- **C68** fails of the code for comments: comments of different files that have the same line number come to stand on one line and become one comment. -/
theorem C68_false_comments : ∃ (env : Env) (p q : Payload) (cfg : Config) (text : Str) (r : Payload),
    Parse env 5 c!"/e/m" exOptsC = .ok p ∧ p.errors = [] ∧ combined 20 p = .ok q ∧ q.config = [cfg] ∧ cfg.parsed.length = 3 ∧ buildText exPrint cfg {} = some text ∧
      Parse (exEnv [(c!"/e/n", text)]) 5 c!"/e/n" exOptsC = .ok r ∧ r.errors = [] ∧ r.config.map (·.parsed.length) = [2] :=
  ⟨exEnv [(c!"/e/m", c!"# a\ninclude /e/s;"), (c!"/e/s", c!"# b\nuser x;")],
    okPayload [(c!"/e/m", [{ dir c!"#" 1 [] with comment := some c!" a" }, incl 2 c!"/e/s" [1]]),
      (c!"/e/s", [{ dir c!"#" 1 [] with comment := some c!" b" }, dir c!"user" 2 [c!"x"]])],
    okPayload [(c!"/e/m", [{ dir c!"#" 1 [] with comment := some c!" a" }, { dir c!"#" 1 [] with comment := some c!" b" }, dir c!"user" 2 [c!"x"]])],
    { file := c!"/e/m", status := c!"ok", parsed := [{ dir c!"#" 1 [] with comment := some c!" a" }, { dir c!"#" 1 [] with comment := some c!" b" }, dir c!"user" 2 [c!"x"]] },
    c!"# a # b\nuser x;", okPayload [(c!"/e/n", [{ dir c!"#" 1 [] with comment := some c!" a # b" }, dir c!"user" 2 [c!"x"]])], by decide +kernel⟩

end Verif
