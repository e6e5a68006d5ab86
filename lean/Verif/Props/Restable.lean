import Verif.Proofs.Relined
import Verif.Props.Lexer
/-!
# C42: Parse, Build, Parse
-/
namespace Verif
open Spec

/-- The first config of a payload: its nodes, and the tokens of its comments. -/
theorem first_nodes {env : Env} {fuel : Nat} {filename : Str} {o : ParseOptions} {p : Payload} (h : Parse env fuel filename o = .ok p)
    (ho : o.combineConfigs = false) (hlex : o.lexers = []) {cfg : Config} (hi : p.config[0]? = some cfg) :
    ∃ file inc, (∀ d c, At d [] cfg.parsed c → Node env o (env.dir filename) file inc c d) ∧ ∃ s, CommentsFrom (lex s) cfg.parsed ∧ LinesFrom (lex s) cfg.parsed := by
  obtain ⟨cs, ps', h1, -, h3, -⟩ := Parse_ok h
  rw [h3 ho] at hi
  change cs[0]? = some cfg at hi
  cases h1 with
  | nil _ hinc => cases hinc
  | ok _ incl rest data ds toks' ps1 cs _ hinc hopen hr hf =>
    cases hi
    cases hinc
    refine ⟨_, _, hr.nodes, data.runes, ?_⟩
    have h1 := hr.commentsFrom.1
    have h2 := hr.linesFrom
    unfold fileToks at h1 h2
    rw [hlex] at h1 h2
    exact ⟨h1, h2⟩
  | bad _ incl rest data e toks' ps1 cs _ hinc hopen hr hs hf =>
    cases hi
    exact ⟨filename, [], fun d c hd => absurd hd at_nil, [], fun d hd => absurd hd within_nil, fun d hd => absurd hd within_nil⟩

/-- What was parsed is readable if its names and arguments are. -/
theorem parsed_readable {isPrint : Char → Bool} {env : Env} {fuel : Nat} {filename : Str} {o : ParseOptions} {p : Payload} {cfg : Config}
    (hparse : Parse env fuel filename o = .ok p) (hcfg : p.config[0]? = some cfg)
    (hcombine : o.combineConfigs = false) (hlexers : o.lexers = [])
    (hhead : ∀ d, Within d cfg.parsed → ¬ IsComment d → HeadReadable isPrint d.directive d.args) : Readable isPrint cfg.parsed := by
  obtain ⟨file, inc, hnodes, s, hfrom, -⟩ := first_nodes hparse hcombine hlexers hcfg
  intro d hd
  obtain ⟨c, hc⟩ := within_at hd []
  have hn := hnodes d c hc
  by_cases hcm : IsComment d
  · left
    refine ⟨hcm, ?_⟩
    have hcm2 := hcm.2
    have hf := hfrom d hd
    clear hhead hc hd hfrom
    cases hn with
    | comment line text hp =>
      obtain ⟨t, ht, htc⟩ := hf text rfl
      exact ⟨rfl, rfl, lex_commentText ht htc⟩
    | param t args m => exact absurd rfl hcm2
    | stmt t args term stmt is block => exact absurd rfl hcm2
  · right
    refine ⟨hcm, ?_, hhead d hd hcm⟩
    clear hhead hc hd
    cases hn with
    | comment line text hp => exact absurd ⟨rfl, by simp⟩ hcm
    | param t args m => rfl
    | stmt t args term stmt is block => rfl

/-- What was parsed is accepted again. -/
theorem parsed_accepted {isPrint : Char → Bool} {env : Env} {fuel : Nat} {filename : Str} {o : ParseOptions} {p : Payload} {cfg : Config}
    (hparse : Parse env fuel filename o = .ok p) (hcfg : p.config[0]? = some cfg)
    (hcombine : o.combineConfigs = false) (hlexers : o.lexers = [])
    (hhead : ∀ d, Within d cfg.parsed → ¬ IsComment d → HeadReadable isPrint d.directive d.args)
    (hmask : ∀ m, HasMask (sources o) c!"if" m → m.testBit 11 = true ∨ m.testBit 12 = true)
    (hincl : o.singleFile = true ∨ ∀ d, Within d cfg.parsed → d.directive ≠ c!"include")
    (hparam : ∀ d, Within d cfg.parsed → d.isMapBlockParameter = true → d.directive ≠ c!"if") : Accepted needsQuote o [] cfg.parsed := by
  obtain ⟨file, inc, hnodes, s, hfrom, -⟩ := first_nodes hparse hcombine hlexers hcfg
  intro d c hd hcm
  have hw := at_within hd
  have hn := hnodes d c hd
  constructor
  · intro m hm
    have hp := hparam d hw
    clear hhead hparam hd hw
    cases hn with
    | comment line text => exact absurd ⟨rfl, by simp⟩ hcm
    | param t args m' h1 h2 h3 =>
      rw [(mapCtx_eq _ _).mpr hm] at h1
      cases h1
      exact ⟨hp rfl, rfl, ((C27_decision _ _ _ _ hm.2).mp h2).2⟩
    | stmt t args term stmt is block h1 =>
      rw [(mapCtx_eq _ _).mpr hm] at h1; cases h1
  · intro hm
    have hmp : d.isMapBlockParameter = false := by
      clear hhead hparam hd hw
      cases hn with
      | comment line text => rfl
      | param t args m' h1 => exact absurd ((mapCtx_eq _ _).mp h1) (hm m')
      | stmt t args term stmt is block => rfl
    have hig : d.directive ∉ o.ignoreDirectives := by
      clear hhead hparam hd hw
      cases hn with
      | comment line text => exact absurd ⟨rfl, by simp⟩ hcm
      | param t args m' h1 => cases hmp
      | stmt t args term stmt is block h1 h2 =>
        intro h
        unfold contains at h2
        rw [List.any_eq_false] at h2
        exact h2 _ h (by simp)
    obtain ⟨-, args, term, h1, h2, h3, h4⟩ := node_checked hn hcm hmp
    refine ⟨hig, hincl.imp id (fun h => h d hw), ?_⟩
    refine accepted_again h1 h2 h3 h4 hmask ?_
    intro hif
    have hr := hhead d hw hcm
    cases ha : d.args with
    | nil => exact absurd ha (hr.ifSome hif)
    | cons a as =>
      refine ⟨a, as, rfl, ?_⟩
      rintro rfl
      have := hr.ifFirst hif _ _ ha
      revert this; decide

/-- C42, the directives: the first config of a payload is given back when it is built (with any indentation, tabs and header) and the text is parsed with
the same options, if its strings are read back as they are (C40), no two comments are next to each other on a line, no include is followed and no
parameter of a map-like block is named `if`.  (The masks of `if` have to allow any number of arguments, as those of the tables do: arguments and
parentheses may be divided differently.) -/
theorem C42_partial (isPrint : Char → Bool) (bo : BuildOptions) {env : Env} {fuel : Nat} {filename : Str} {o : ParseOptions} {p : Payload} {cfg : Config}
    (hparse : Parse env fuel filename o = .ok p) (hcfg : p.config[0]? = some cfg)
    (hcombine : o.combineConfigs = false) (hcomments : o.parseComments = true) (hlexers : o.lexers = [])
    (hmask : ∀ m, HasMask (sources o) c!"if" m → m.testBit 11 = true ∨ m.testBit 12 = true)
    (hincl : o.singleFile = true ∨ ∀ d, Within d cfg.parsed → d.directive ≠ c!"include")
    (hhead : ∀ d, Within d cfg.parsed → ¬ IsComment d → HeadReadable isPrint d.directive d.args)
    (hparam : ∀ d, Within d cfg.parsed → d.isMapBlockParameter = true → d.directive ≠ c!"if")
    (hapart : CommentsApart cfg.parsed)
    (hindent : 0 ≤ bo.indent) (hbuilder : NoBuilder isPrint bo cfg.parsed)
    {env' : Env} {fuel' : Nat} {filename' : Str} {data : FileData} (hbuild : buildText isPrint cfg bo = some data.runes)
    (hperm : ∀ l, (env'.mapOrder l).Perm l) (hfuel : 2 ≤ fuel') (hopen : env'.openFile 0 filename' = .ok data) :
    ∃ es, Parse env' fuel' filename' o = .ok (okPayload [(filename', es)]) ∧ Same (headerDirs bo ++ cfg.parsed) es := by
  exact C41_partial isPrint bo cfg env' fuel' filename' o data hindent hbuild (parsed_readable hparse hcfg hcombine hlexers hhead) hapart
    (parsed_accepted hparse hcfg hcombine hlexers hhead hmask hincl hparam) hbuilder hperm hfuel hopen hcombine hcomments hlexers

/-! ## The text -/

theorem hexDigits_no_nl (k n : Nat) : '\n' ∉ hexDigits k n := by
  have hd : ∀ n < 16, hexDigit n ≠ '\n' := by decide
  induction k generalizing n with
  | zero => simp [hexDigits]
  | succ k ih =>
    rw [hexDigits, List.mem_append]
    rintro (h | h)
    · exact ih _ h
    · exact hd _ (Nat.mod_lt _ (by decide)) (List.mem_singleton.mp h).symm

/-- Enquote adds no line feeds. -/
theorem Enquote_no_nl (isPrint : Char → Bool) {s : Str} (h : '\n' ∉ s) : '\n' ∉ Enquote isPrint s := by
  rw [C40_text]
  split
  · have hq : quoteFor s ≠ '\n' := by unfold quoteFor; split <;> decide
    simp only [List.cons_append, List.mem_cons, List.mem_append, List.mem_flatMap, List.not_mem_nil, or_false, not_or]
    refine ⟨hq.symm, ?_, hq.symm⟩
    rintro ⟨c, hc, hm⟩
    have hcn : c ≠ '\n' := fun e => h (e ▸ hc)
    unfold enc at hm
    split at hm
    · exact hcn (List.mem_singleton.mp hm).symm
    · split at hm
      · split at hm
        · revert hm; decide
        · exact hcn (List.mem_singleton.mp hm).symm
      · unfold escapeRune at hm
        split at hm
        · simp only [List.mem_cons, List.not_mem_nil, or_false] at hm
          rcases hm with hm | hm
          · cases hm
          · exact hcn hm.symm
        split at hm; · revert hm; decide
        split at hm; · revert hm; decide
        split at hm; · revert hm; decide
        split at hm; · revert hm; decide
        split at hm; · revert hm; decide
        split at hm; · revert hm; decide
        split at hm; · revert hm; decide
        split at hm
        · rcases List.mem_append.mp hm with hm | hm
          · revert hm; decide
          · exact hexDigits_no_nl _ _ hm
        split at hm
        · rcases List.mem_append.mp hm with hm | hm
          · revert hm; decide
          · exact hexDigits_no_nl _ _ hm
        rcases List.mem_append.mp hm with hm | hm
        · revert hm; decide
        · exact hexDigits_no_nl _ _ hm
  · exact h

theorem spaced_no_nl {l : List Str} (h : ∀ s ∈ l, '\n' ∉ s) : '\n' ∉ spaced l := by
  cases l with
  | nil => simp [spaced]
  | cons a as =>
    rw [spaced, List.mem_append, List.mem_flatMap]
    rintro (h1 | ⟨x, hx, h1⟩)
    · exact h a (by simp) h1
    · rcases List.mem_cons.mp h1 with h1 | h1
      · cases h1
      · exact h x (by simp [hx]) h1

theorem headText_no_nl (isPrint : Char → Bool) {name : Str} {args : List Str} (h : ∀ s ∈ name :: args, '\n' ∉ s) : '\n' ∉ headText (Enquote isPrint) name args := by
  have hs : ∀ l : List Str, (∀ s ∈ l, s ∈ name :: args) → '\n' ∉ spaced (l.map (Enquote isPrint)) := by
    intro l hl
    refine spaced_no_nl ?_
    intro s hs
    obtain ⟨x, hx, rfl⟩ := List.mem_map.mp hs
    exact Enquote_no_nl isPrint (h x (hl x hx))
  unfold headText
  split
  · rw [List.mem_append, List.mem_append]
    rintro ((h1 | h1) | h1)
    · revert h1; decide
    · exact hs args (fun s hs => by simp [hs]) h1
    · revert h1; decide
  · exact hs _ (fun s hs => hs)

theorem same_within {ds es : List Directive} (h : Same ds es) : ∀ x, Within x es → ∃ d, Within d ds ∧ d.directive = x.directive := by
  induction h with
  | nil => intro x hx; exact absurd hx within_nil
  | @leaf d e ds es h1 h2 h3 h4 h5 _ ih =>
    intro x hx
    rcases within_cons.mp hx with rfl | ⟨b, hb, _⟩ | hx
    · exact ⟨d, .here (by simp), h1⟩
    · rw [h5] at hb; cases hb
    · obtain ⟨y, hy, e⟩ := ih x hx
      exact ⟨y, Within.mono hy (fun _ hm => List.mem_cons_of_mem _ hm), e⟩
  | @node d e b c ds es h1 h2 h3 h4 h5 _ _ ihb ih =>
    intro x hx
    rcases within_cons.mp hx with rfl | ⟨b', hb, hx⟩ | hx
    · exact ⟨d, .here (by simp), h1⟩
    · rw [h5] at hb; cases hb
      obtain ⟨y, hy, e⟩ := ihb x hx
      exact ⟨y, .deep (by simp) h4 hy, e⟩
    · obtain ⟨y, hy, e⟩ := ih x hx
      exact ⟨y, Within.mono hy (fun _ hm => List.mem_cons_of_mem _ hm), e⟩

/-- The text of a tree is that of the directives read from it, if no comment follows a block with the line of that block. -/
theorem rebuild_text (isPrint : Char → Bool) (bo : BuildOptions) (cfg : Config) (env : Env) (fuel : Nat) (filename : Str) (o : ParseOptions) (data : FileData)
    (hindent : 0 ≤ bo.indent) (hheader : bo.header = false) (hbuild : buildText isPrint cfg bo = some data.runes)
    (hread : Readable isPrint cfg.parsed) (hapart : CommentsApart cfg.parsed) (hclear : CommentsClear cfg.parsed)
    (hzero : ∀ d r, cfg.parsed = d :: r → ¬ CommentOn d 0)
    (hflat : ∀ d, Within d cfg.parsed → ¬ IsComment d → ∀ s ∈ d.directive :: d.args, '\n' ∉ s)
    (hacc : Accepted needsQuote o [] cfg.parsed) (hbuilder : NoBuilder isPrint bo cfg.parsed)
    (hperm : ∀ l, (env.mapOrder l).Perm l) (hfuel : 2 ≤ fuel) (hopen : env.openFile 0 filename = .ok data)
    (hcombine : o.combineConfigs = false) (hcomments : o.parseComments = true) (hlexers : o.lexers = []) :
    ∃ es, Parse env fuel filename o = .ok (okPayload [(filename, es)]) ∧ Same cfg.parsed es ∧
      ∀ cfg' : Config, cfg'.parsed = es → buildText isPrint cfg' bo = some data.runes := by
  have htext : ∀ c : Config, buildText isPrint c bo = some (bodyText isPrint bo c.parsed) := by
    intro c
    unfold buildText
    rw [C45_body isPrint bo hindent, hheader]
    rfl
  have hdata : data.runes = bodyText isPrint bo cfg.parsed := by
    rw [htext] at hbuild
    exact (Option.some.inj hbuild).symm
  have hl := hread.lexable
  obtain ⟨e, htoks⟩ := linesText_ltoks (indentOf bo) bo.tabs hl.text hl.treeOk hapart (by
    intro d hd hc i hi hn
    have hh := headText_no_nl isPrint (hflat d hd hc)
    rw [← hl.text d hd hc] at hh
    exact hh (List.mem_flatMap.mpr ⟨i, hi, hn⟩)) hzero
  obtain ⟨es, ps', h1, h2, h3⟩ := run_ltoks (env := env) (configDir := env.dir filename) (file := filename) hcomments htoks { vals := [], arr := 0, cap := 0 }
    (startFile (initPS filename) []) [] [] rfl hread hacc (Or.inl ⟨rfl, rfl⟩)
  rw [List.append_nil, ← bodyText_eq hl hbuilder, ← hdata] at h1
  have hsame := h2.same hread
  have hf : fileToks o data = lex data.runes := by
    unfold fileToks
    rw [hlexers]; rfl
  rw [← hf] at h1
  refine ⟨es, Parse_one hperm hfuel hcombine hopen h1 h3, hsame, ?_⟩
  · rintro cfg' rfl
    rw [htext, hdata]
    have hb' : NoBuilder isPrint bo cfg'.parsed := by
      intro x hx
      obtain ⟨d, hd, e⟩ := same_within hsame x hx
      rw [← e]; exact hbuilder d hd
    have hlay : layout (Enquote isPrint) (fun _ => none) 0 0 cfg'.parsed = layout (Enquote isPrint) (fun _ => none) 0 0 cfg.parsed :=
      h2.layout 0 0 hclear (Or.inl rfl)
    unfold bodyText fileLines
    rw [layout_unregistered _ _ _ _ _ hbuilder, layout_unregistered _ _ _ _ _ hb', hlay]

/-- C42, the text: if moreover no comment follows a block with the line of that block, building again without header gives the same text. -/
theorem C42_text_partial (isPrint : Char → Bool) (bo : BuildOptions) {env : Env} {fuel : Nat} {filename : Str} {o : ParseOptions} {p : Payload} {cfg : Config}
    (hparse : Parse env fuel filename o = .ok p) (hcfg : p.config[0]? = some cfg)
    (hcombine : o.combineConfigs = false) (hcomments : o.parseComments = true) (hlexers : o.lexers = [])
    (hmask : ∀ m, HasMask (sources o) c!"if" m → m.testBit 11 = true ∨ m.testBit 12 = true)
    (hincl : o.singleFile = true ∨ ∀ d, Within d cfg.parsed → d.directive ≠ c!"include")
    (hhead : ∀ d, Within d cfg.parsed → ¬ IsComment d → HeadReadable isPrint d.directive d.args)
    (hflat : ∀ d, Within d cfg.parsed → ¬ IsComment d → ∀ s ∈ d.directive :: d.args, '\n' ∉ s)
    (hparam : ∀ d, Within d cfg.parsed → d.isMapBlockParameter = true → d.directive ≠ c!"if")
    (hapart : CommentsApart cfg.parsed) (hclear : CommentsClear cfg.parsed)
    (hindent : 0 ≤ bo.indent) (hheader : bo.header = false) (hbuilder : NoBuilder isPrint bo cfg.parsed)
    {env' : Env} {fuel' : Nat} {filename' : Str} {data : FileData} (hbuild : buildText isPrint cfg bo = some data.runes)
    (hperm : ∀ l, (env'.mapOrder l).Perm l) (hfuel : 2 ≤ fuel') (hopen : env'.openFile 0 filename' = .ok data) :
    ∃ es, Parse env' fuel' filename' o = .ok (okPayload [(filename', es)]) ∧ Same cfg.parsed es ∧
      ∀ cfg' : Config, cfg'.parsed = es → buildText isPrint cfg' bo = some data.runes := by
  have hzero : ∀ d r, cfg.parsed = d :: r → ¬ CommentOn d 0 := by
    rintro d r e ⟨-, -, h⟩
    obtain ⟨-, -, -, s, -, hl⟩ := first_nodes hparse hcombine hlexers hcfg
    obtain ⟨t, ht, h2⟩ := hl d (.here (by simp [e]))
    have := ((C05_lines_ordered s).2 t ht).1
    omega
  exact rebuild_text isPrint bo cfg env' fuel' filename' o data hindent hheader hbuild (parsed_readable hparse hcfg hcombine hlexers hhead) hapart hclear hzero hflat
    (parsed_accepted hparse hcfg hcombine hlexers hhead hmask hincl hparam) hbuilder hperm hfuel hopen hcombine hcomments hlexers

/-! ## An example -/

theorem exTree2_clear : CommentsClear exTree2 := by
  have key : ∀ l : List Directive, l.length ≤ 1 → ∀ a x y b, l = a ++ x :: y :: b → x.block ≠ none → IsComment y → x.line ≠ y.line := by
    intro l hl a x y b e
    have := congrArg List.length e
    simp only [List.length_append, List.length_cons] at this
    omega
  rintro l (rfl | ⟨d, hd, hb⟩)
  · exact key _ (by decide)
  · rcases exTree2_within hd with rfl | rfl | rfl | rfl
    · cases hb
      rintro a x y b e hx hy
      cases a with
      | nil => cases e; exact absurd hy (by decide)
      | cons z a =>
        cases a with
        | nil => cases e
        | cons z' a => cases a <;> cases e
    · cases hb
    · cases hb; exact key _ (by decide)
    · cases hb

/-- The text of the example as it might be written. -/
def exText3 : Str := c!"a 'x y'{ # c\n if ( $b =\t'c d'){\n\ne ;}}"
/-- Its tree, with the comment as it is written. -/
def exTree3 : List Directive :=
  [blk c!"a" 1 [c!"x y"] [{ dir c!"#" 1 [] with comment := some c!" c" }, blk c!"if" 2 [c!"$b", c!"=", c!"c d"] [dir c!"e" 4 []]]]

example : Parse (exEnv [(c!"f", exText3)]) 2 c!"f" exFree = .ok (okPayload [(c!"f", exTree3)]) := by decide +kernel

theorem exTree2_head : ∀ d, Within d exTree2 → ¬ IsComment d → HeadReadable exPrint d.directive d.args := by
  intro d hd hc
  rcases exTree2_readable d hd with h | h
  · exact absurd h.1 hc
  · exact h.2.2

example : ∃ es, Parse (exEnv [(c!"g", c!"a \"x y\" { #c\n  if ($b = \"c d\") {\n    e;\n  }\n}")]) 2 c!"g" exFree = .ok (okPayload [(c!"g", es)]) ∧ Same exTree2 es ∧
    ∀ cfg' : Config, cfg'.parsed = es → buildText exPrint cfg' { indent := 2 } = some c!"a \"x y\" { #c\n  if ($b = \"c d\") {\n    e;\n  }\n}" :=
  C42_text_partial exPrint { indent := 2 } (env := exEnv [(c!"f", c!"a 'x y'{#c\n if ( $b =\t'c d'){\ne ;}}")]) (fuel := 2) (filename := c!"f") (o := exFree)
    (p := okPayload [(c!"f", exTree2)]) (cfg := { file := c!"f", status := c!"ok", parsed := exTree2 }) (by decide +kernel) (by rfl) rfl rfl rfl
    (fun m h => (by
      obtain ⟨f, hf, l, h, -⟩ := h
      simp [sources, exFree] at hf
      subst hf
      cases h))
    (Or.inr (fun d hd => by rcases exTree2_within hd with rfl | rfl | rfl | rfl <;> decide)) exTree2_head
    (fun d hd _ => by rcases exTree2_within hd with rfl | rfl | rfl | rfl <;> decide)
    (fun d hd h => by rcases exTree2_within hd with rfl | rfl | rfl | rfl <;> cases h)
    exTree2_apart exTree2_clear (by decide) rfl (fun _ _ => rfl) (data := { runes := c!"a \"x y\" { #c\n  if ($b = \"c d\") {\n    e;\n  }\n}" }) (by decide +kernel)
    (fun _ => List.Perm.refl _) (Nat.le_refl _) rfl

/-- C42 is false of the text in general: after `a { b; } #c` the second text differs from the first. -/
theorem C42_false_text : ∃ src text, ∃ ds es : List Directive, Parse (exEnv [(c!"f", src)]) 2 c!"f" exFree = .ok (okPayload [(c!"f", ds)]) ∧
    buildText exPrint { file := c!"f", status := c!"ok", parsed := ds } {} = some text ∧
    Parse (exEnv [(c!"f", text)]) 2 c!"f" exFree = .ok (okPayload [(c!"f", es)]) ∧
    buildText exPrint { file := c!"f", status := c!"ok", parsed := es } {} ≠ some text := by
  refine ⟨c!"a { b; } #c", c!"a {\n    b;\n} #c", [blk c!"a" 1 [] [dir c!"b" 1 []], { dir c!"#" 1 [] with comment := some c!"c" }],
    [blk c!"a" 1 [] [dir c!"b" 2 []], { dir c!"#" 3 [] with comment := some c!"c" }], ?_, ?_, ?_, ?_⟩ <;> decide +kernel

/-- C42 is false of the directives in general: after `a "#b";` the text is `a #b;` and does not parse. -/
theorem C42_false : ∃ src text, ∃ ds : List Directive, Parse (exEnv [(c!"f", src)]) 2 c!"f" exFree = .ok (okPayload [(c!"f", ds)]) ∧
    buildText exPrint { file := c!"f", status := c!"ok", parsed := ds } {} = some text ∧
    ∀ es, Parse (exEnv [(c!"f", text)]) 2 c!"f" exFree ≠ .ok (okPayload [(c!"f", es)]) := by
  refine ⟨c!"a \"#b\";", c!"a #b;", [dir c!"a" 1 [c!"#b"]], ?_, ?_, ?_⟩
  · decide +kernel
  · decide +kernel
  · intro es h
    have : ∀ p, Parse (exEnv [(c!"f", c!"a #b;")]) 2 c!"f" exFree = .ok p → p.status = c!"failed" := by
      intro p hp
      have := (show (match Parse (exEnv [(c!"f", c!"a #b;")]) 2 c!"f" exFree with | .ok p => p.status == c!"failed" | _ => false) = true by decide +kernel)
      rw [hp] at this
      simpa using this
    exact absurd (show c!"ok" = c!"failed" from this _ h) (by decide)

end Verif
