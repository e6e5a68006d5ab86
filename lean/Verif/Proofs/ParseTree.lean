import Verif.Proofs.Files
import Verif.Proofs.Combine
import Verif.Spec.Placed
import Mathlib.Data.List.Forall2
/-!
# What is known of every directive a run returns
-/
namespace Verif
open Spec

/-! ## Positions -/

theorem at_nil {d : Directive} {ctx c : List Str} : ¬ At d ctx [] c := by
  intro h
  cases h with
  | here h => cases h
  | deep h => cases h

theorem at_append {d : Directive} {ctx c : List Str} {a b : List Directive} : At d ctx (a ++ b) c ↔ At d ctx a c ∨ At d ctx b c := by
  constructor
  · intro h
    cases h with
    | here h =>
      rcases List.mem_append.mp h with h | h
      · exact Or.inl (.here h)
      · exact Or.inr (.here h)
    | deep h h1 h2 =>
      rcases List.mem_append.mp h with h | h
      · exact Or.inl (.deep h h1 h2)
      · exact Or.inr (.deep h h1 h2)
  · rintro (h | h)
    · cases h with
      | here h => exact .here (List.mem_append_left _ h)
      | deep h h1 h2 => exact .deep (List.mem_append_left _ h) h1 h2
    · cases h with
      | here h => exact .here (List.mem_append_right _ h)
      | deep h h1 h2 => exact .deep (List.mem_append_right _ h) h1 h2

theorem at_flat {d : Directive} {ctx c : List Str} {ds : List Directive} (hb : ∀ d ∈ ds, d.block = none) (h : At d ctx ds c) :
    d ∈ ds ∧ c = ctx := by
  cases h with
  | here h => exact ⟨h, rfl⟩
  | deep h h1 => rw [hb _ h] at h1; cases h1

theorem at_cons_block {d d' : Directive} {ctx c : List Str} {b ds : List Directive} (hb : d'.block = some b)
    (h : At d ctx (d' :: ds) c) : (d = d' ∧ c = ctx) ∨ At d (enter ctx d'.directive) b c ∨ At d ctx ds c := by
  cases h with
  | here h =>
    rcases List.mem_cons.mp h with rfl | h
    · exact Or.inl ⟨rfl, rfl⟩
    · exact Or.inr (Or.inr (.here h))
  | deep h h1 h2 =>
    rcases List.mem_cons.mp h with rfl | h
    · rw [hb] at h1; cases h1
      exact Or.inr (Or.inl h2)
    · exact Or.inr (Or.inr (.deep h h1 h2))

theorem within_at {d : Directive} {ds : List Directive} (h : Within d ds) (ctx : List Str) : ∃ c, At d ctx ds c := by
  induction h generalizing ctx with
  | here h => exact ⟨ctx, .here h⟩
  | @deep ds d' b h h1 _ ih =>
    obtain ⟨c, hc⟩ := ih (enter ctx d'.directive)
    exact ⟨c, .deep h h1 hc⟩

theorem at_within {d : Directive} {ds : List Directive} {ctx c : List Str} (h : At d ctx ds c) : Within d ds := by
  induction h with
  | here h => exact .here h
  | deep h h1 _ ih => exact .deep h h1 ih

theorem enterBlockCtx_vals (stmt : Directive) (ctx : Ctx) (ps : PS) :
    (enterBlockCtx stmt ctx ps).1.vals = enter ctx.vals stmt.directive := by
  unfold enterBlockCtx enter
  by_cases h : ctx.vals.head? = some c!"http" ∧ stmt.directive = c!"location"
  · have hl : ctx.vals.length > 0 := by
      cases hv : ctx.vals with
      | nil => rw [hv] at h; simp at h
      | cons => simp
    simp [h, hl]
  · have : ¬ (ctx.vals.length > 0 && ctx.vals.head? == some c!"http" && stmt.directive == c!"location") = true := by
      simp only [Bool.and_eq_true, beq_iff_eq, decide_eq_true_eq]
      rintro ⟨⟨-, h1⟩, h2⟩; exact h ⟨h1, h2⟩
    rw [if_neg this, if_neg h]
    split <;> rfl

theorem enterBlockCtx_included (stmt : Directive) (ctx : Ctx) (ps : PS) : (enterBlockCtx stmt ctx ps).2.included = ps.included := by
  unfold enterBlockCtx
  split
  · rfl
  · split <;> rfl

/-! ## The table of included files -/

/-- `included` only grows. -/
theorem included_rel (o : ParseOptions) (file : Str) : StateRel o file (fun a b => ∃ more, b.included = a.included ++ more) where
  refl ps := ⟨[], by simp⟩
  trans := by
    rintro a b c ⟨m1, h1⟩ ⟨m2, h2⟩
    exact ⟨m1 ++ m2, by rw [h2, h1, List.append_assoc]⟩
  err ps e := ⟨[], by simp [handleError]⟩
  opens ps := ⟨[], by simp⟩
  globs ps := ⟨[], by simp⟩
  add ctx stmt ps f := by
    unfold addInclude
    cases ps.included.lookup f with
    | some i => exact ⟨[], by simp⟩
    | none => exact ⟨[(f, (ps.included.length : Int))], by simp⟩
  enter stmt ctx ps := ⟨[], by rw [enterBlockCtx_included]; simp⟩

theorem assoc_append {α : Type} {l m : List (Str × α)} {k : Str} {v : α} (h : l.lookup k = some v) :
    (l ++ m).lookup k = some v := by
  induction l with
  | nil => cases h
  | cons e l ih =>
    rw [List.cons_append, List.lookup_cons]
    rw [List.lookup_cons] at h
    split
    · rename_i he; rw [he] at h; exact h
    · rename_i he; rw [he] at h; exact ih h

theorem assoc_append_none {α : Type} {l m : List (Str × α)} {k : Str} (h : l.lookup k = none) :
    (l ++ m).lookup k = m.lookup k := by
  induction l with
  | nil => rfl
  | cons e l ih =>
    rw [List.cons_append, List.lookup_cons]
    rw [List.lookup_cons] at h
    split
    · rename_i he; rw [he] at h; cases h
    · rename_i he; rw [he] at h; exact ih h

theorem assoc_none_iff {α : Type} {l : List (Str × α)} {k : Str} : l.lookup k = none ↔ k ∉ l.map (·.1) := by
  induction l with
  | nil => simp
  | cons e l ih =>
    rw [List.lookup_cons, List.map_cons, List.mem_cons, not_or]
    by_cases h : k = e.1
    · simp [h]
    · simp only [beq_false_of_ne h, h, not_false_eq_true, true_and]; exact ih

theorem addInclude_directive (file : Str) (ctx : Ctx) (stmt : Directive) (ps : PS) (f : Str) :
    ∃ i, (addInclude file ctx stmt ps f).1 = { stmt with includes := some (stmt.includes.getD [] ++ [i]) } ∧
      (addInclude file ctx stmt ps f).2.included.lookup f = some i := by
  unfold addInclude
  cases h : ps.included.lookup f with
  | some i => exact ⟨i, by simp [h], by simp [h]⟩
  | none =>
    refine ⟨(ps.included.length : Int), ?_, ?_⟩
    · simp only
      rw [assoc_append_none h]; simp
    · simp only
      rw [assoc_append_none h]; simp

/-- The indices of the names are put into `Includes`. -/
theorem addIncludes_directive (o : ParseOptions) (file : Str) (ctx : Ctx) (stmt : Directive) (ps : PS) (names : List Str) :
    ∃ is : List Int, (names ≠ [] → (addIncludes file ctx stmt ps names).1 = { stmt with includes := some (stmt.includes.getD [] ++ is) }) ∧
      (names = [] → (addIncludes file ctx stmt ps names).1 = stmt) ∧
      List.Forall₂ (fun f i => (addIncludes file ctx stmt ps names).2.included.lookup f = some i) names is := by
  induction names generalizing stmt ps with
  | nil => exact ⟨[], fun h => absurd rfl h, fun _ => rfl, .nil⟩
  | cons f fs ih =>
    obtain ⟨i, h1, h2⟩ := addInclude_directive file ctx stmt ps f
    obtain ⟨is, h3, h4, h5⟩ := ih (addInclude file ctx stmt ps f).1 (addInclude file ctx stmt ps f).2
    refine ⟨i :: is, fun _ => ?_, fun h => by simp at h, .cons ?_ h5⟩
    · show (addIncludes file ctx (addInclude file ctx stmt ps f).1 (addInclude file ctx stmt ps f).2 fs).1 = _
      cases fs with
      | nil => rw [h4 rfl, h1]; cases h5; rfl
      | cons g gs => rw [h3 (by simp), h1]; simp
    · obtain ⟨more, hm⟩ := (included_rel o file).addIncludes ctx (addInclude file ctx stmt ps f).1 (addInclude file ctx stmt ps f).2 fs
      show (addIncludes file ctx (addInclude file ctx stmt ps f).1 (addInclude file ctx stmt ps f).2 fs).2.included.lookup f = some i
      rw [hm]; exact assoc_append h2

/-! ## The nodes of the tree -/

/-- The file names an include directive stands for. -/
inductive Resolves (env : Env) (configDir : Str) (arg : Str) : List Str → Prop
  | glob (n names) : hasMagic (resolve env configDir arg) = true → env.glob n (resolve env configDir arg) = .ok names →
      Resolves env configDir arg (sortStrings names)
  | file (n data) : hasMagic (resolve env configDir arg) = false → env.openFile n (resolve env configDir arg) = .ok data →
      Resolves env configDir arg [resolve env configDir arg]

/-- The `Includes` of a directive with the given name and arguments, when `included` is the table of files. -/
inductive Includes (env : Env) (o : ParseOptions) (configDir : Str) (included : List (Str × Int)) (name : Str) (args : List Str) :
    Option (List Int) → Prop
  | other : (o.singleFile = true ∨ name ≠ c!"include") → Includes env o configDir included name args none
  | empty (a as) : o.singleFile = false → name = c!"include" → args = a :: as → Resolves env configDir a [] →
      Includes env o configDir included name args none
  | bad (a as n e) : o.singleFile = false → name = c!"include" → args = a :: as → hasMagic (resolve env configDir a) = false →
      env.openFile n (resolve env configDir a) = .error e → o.stopParsingOnError = false →
      Includes env o configDir included name args none
  | names (a as names is) : o.singleFile = false → name = c!"include" → args = a :: as → Resolves env configDir a names → names ≠ [] →
      List.Forall₂ (fun f i => included.lookup f = some i) names is → Includes env o configDir included name args (some is)

theorem Includes.mono {env : Env} {o : ParseOptions} {configDir : Str} {i1 more : List (Str × Int)} {name : Str} {args : List Str}
    {r : Option (List Int)} (h : Includes env o configDir i1 name args r) : Includes env o configDir (i1 ++ more) name args r := by
  cases h with
  | other h => exact .other h
  | empty a as h1 h2 h3 h4 => exact .empty a as h1 h2 h3 h4
  | bad a as n e h1 h2 h3 h4 h5 h6 => exact .bad a as n e h1 h2 h3 h4 h5 h6
  | names a as names is h1 h2 h3 h4 h5 h6 => exact .names a as names is h1 h2 h3 h4 h5 (h6.imp fun _ _ h => assoc_append h)

/-- The file name a directive carries. -/
def fileName (o : ParseOptions) (file : Str) : Str := if o.combineConfigs then file else []

/-- What a run knows about a directive standing in context `c`. -/
inductive Node (env : Env) (o : ParseOptions) (configDir file : Str) (included : List (Str × Int)) (c : List Str) : Directive → Prop
  | comment (line : Int) (text : Str) : o.parseComments = true →
      Node env o configDir file included c ⟨c!"#", line, [], fileName o file, none, none, some text, false⟩
  | param (t : Tok) (args : List Str) (m : Str) : mapCtx c = some m →
      analyzeMapBody file (baseStmt o file t args) c!";" m = none → t.isCommentTok = false →
      Node env o configDir file included c ⟨t.value, t.line, args, fileName o file, none, none, none, true⟩
  | stmt (t : Tok) (args : List Str) (term : Tok) (stmt : Directive) (is : Option (List Int)) (block : Option (List Directive)) :
      mapCtx c = none → contains o.ignoreDirectives t.value = false → term.isTerm = true → t.isCommentTok = false →
      analyze file (baseStmt o file t args) term.value c o = none → prepIf (baseStmt o file t args) = some stmt →
      Includes env o configDir included t.value stmt.args is → (block.isSome = true ↔ term.value = c!"{") →
      Node env o configDir file included c ⟨t.value, t.line, stmt.args, fileName o file, is, block, none, false⟩

theorem Node.mono {env : Env} {o : ParseOptions} {configDir file : Str} {i1 more : List (Str × Int)} {c : List Str} {d : Directive}
    (h : Node env o configDir file i1 c d) : Node env o configDir file (i1 ++ more) c d := by
  cases h with
  | comment line text h => exact .comment line text h
  | param t args m h1 h2 h3 => exact .param t args m h1 h2 h3
  | stmt t args term stmt is block h1 h2 h3 h4 h5 h6 h7 h8 => exact .stmt t args term stmt is block h1 h2 h3 h4 h5 h6 h7.mono h8

theorem readArgs_term {pc : Bool} {args comments : List Str} {toks : List Tok} {r : List Str × List Str × Tok × List Tok}
    (h : readArgs pc args comments toks = some r) : r.2.2.1.isTerm = true := by
  induction toks generalizing args comments with
  | nil => simp [readArgs] at h
  | cons t toks ih =>
    unfold readArgs at h
    split at h
    · rename_i ht; cases h; exact ht
    · split at h
      · exact ih h
      · split at h
        · exact ih h
        · exact ih h

theorem isTerm_iff (t : Tok) : t.isTerm = true ↔ t.quoted = false ∧ (t.value = c!"{" ∨ t.value = c!";" ∨ t.value = c!"}") := by
  unfold Tok.isTerm
  cases t.quoted <;> simp
  tauto

theorem isTerm_is {t : Tok} (h : t.isTerm = true) (v : Str) : t.is v = true ↔ t.value = v := by
  obtain ⟨hq, -⟩ := (isTerm_iff t).mp h
  simp [Tok.is, hq]

/-- `prepIf` changes at most the arguments. -/
theorem prepIf_some {d stmt : Directive} (h : prepIf d = some stmt) : stmt = { d with args := stmt.args } := by
  unfold prepIf at h
  split at h
  · unfold prepareIfArgs at h
    split at h
    · split at h
      · simp only [Option.ite_none_left_eq_some] at h
        obtain ⟨-, h⟩ := h
        cases h; rfl
      · cases h; cases d; rfl
    · cases h; cases d; rfl
  · cases h; cases d; rfl

theorem doInclude_ok {env : Env} {o : ParseOptions} {configDir file : Str} {ctx : Ctx} {stmt stmt' : Directive} {ps ps' : PS}
    (hn : stmt.includes = none) (h : doInclude env o configDir file ctx stmt ps = (.ok stmt', ps')) :
    stmt' = { stmt with includes := stmt'.includes } ∧
      Includes env o configDir ps'.included stmt.directive stmt.args stmt'.includes := by
  have hr := doInclude_inclR env o configDir file ctx stmt ps
  rw [h] at hr
  cases hr with
  | other h1 =>
    refine ⟨by cases stmt; rfl, ?_⟩
    rw [hn]
    refine .other ?_
    cases hs : o.singleFile with
    | true => exact Or.inl rfl
    | false => right; rw [hs] at h1; simpa using h1
  | globOk a as names h1 h2 h3 h4 =>
    obtain ⟨is, h5, h6, h7⟩ := addIncludes_directive o file ctx stmt { ps with globs := ps.globs + 1 } (sortStrings names)
    simp only [Bool.and_eq_true, Bool.not_eq_true', beq_iff_eq] at h1
    by_cases hns : sortStrings names = []
    · rw [h6 hns]
      refine ⟨by cases stmt; rfl, ?_⟩
      rw [hn]
      refine .empty a as h1.1 h1.2 h2 ?_
      have := Resolves.glob (env := env) (configDir := configDir) (arg := a) ps.globs names h3 h4
      rwa [hns] at this
    · rw [h5 hns]
      refine ⟨rfl, ?_⟩
      simp only [hn, Option.getD_none, List.nil_append]
      exact .names a as _ is h1.1 h1.2 h2 (.glob ps.globs names h3 h4) hns h7
  | openBad a as e h1 h2 h3 h4 h5 =>
    simp only [Bool.and_eq_true, Bool.not_eq_true', beq_iff_eq] at h1
    refine ⟨by cases stmt; rfl, ?_⟩
    rw [hn]
    exact .bad a as _ e h1.1 h1.2 h2 h3 h4 h5
  | openOk a as data h1 h2 h3 h4 =>
    obtain ⟨is, h5, h6, h7⟩ := addIncludes_directive o file ctx stmt { ps with opens := ps.opens + 1 } [resolve env configDir a]
    simp only [Bool.and_eq_true, Bool.not_eq_true', beq_iff_eq] at h1
    rw [h5 (by simp)]
    refine ⟨rfl, ?_⟩
    simp only [hn, Option.getD_none, List.nil_append]
    exact .names a as _ is h1.1 h1.2 h2 (.file ps.opens data h3 h4) (by simp) h7

theorem commentDirectives_node {env : Env} {o : ParseOptions} {configDir file : Str} {included : List (Str × Int)} {c : List Str}
    {line : Int} {comments : List Str} (h : comments ≠ [] → o.parseComments = true) :
    ∀ d ∈ commentDirectives line (fileName o file) comments, d.block = none ∧ Node env o configDir file included c d := by
  intro d hd
  unfold commentDirectives at hd
  obtain ⟨x, hx, rfl⟩ := List.mem_map.mp hd
  refine ⟨rfl, .comment line x (h ?_)⟩
  rintro rfl; cases hx

theorem readArgs_comments {pc : Bool} {args comments : List Str} {toks : List Tok} {r : List Str × List Str × Tok × List Tok}
    (h : readArgs pc args comments toks = some r) (hc : comments ≠ [] → pc = true) : r.2.1 ≠ [] → pc = true := by
  induction toks generalizing args comments with
  | nil => simp [readArgs] at h
  | cons t toks ih =>
    unfold readArgs at h
    split at h
    · cases h; exact hc
    · split at h
      · exact ih h hc
      · split at h
        · rename_i hp; exact fun _ => hp
        · exact ih h hc

/-- The directive of an accepted statement. -/
theorem stmt_node {env : Env} {o : ParseOptions} {configDir file : Str} {ctx : Ctx} {t : Tok} {toks : List Tok} {ps : PS}
    {args comments : List Str} {term : Tok} {rest : List Tok} {stmt stmt' : Directive} {ps' : PS}
    (R : Reads o t toks args comments term rest) (h1 : mapCtx ctx.vals = none) (h2 : contains o.ignoreDirectives t.value = false)
    (h3 : analyze file (baseStmt o file t args) term.value ctx.vals o = none) (h4 : prepIf (baseStmt o file t args) = some stmt)
    (h5 : doInclude env o configDir file ctx stmt ps = (.ok stmt', ps')) (b : Option (List Directive)) (hb : b.isSome = true ↔ term.value = c!"{") :
    Node env o configDir file ps'.included ctx.vals { stmt' with block := b } := by
  have e1 := prepIf_some h4
  have hinc : stmt.includes = none := by rw [e1]; rfl
  have hdir : stmt.directive = t.value := by rw [e1]; rfl
  obtain ⟨e2, hi⟩ := doInclude_ok hinc h5
  have ht := readArgs_term R.read
  rw [hdir] at hi
  have := Node.stmt (env := env) (configDir := configDir) (included := ps'.included) t args term stmt stmt'.includes b h1 h2 ht R.notComment h3 h4 hi hb
  have e3 : ({ stmt' with block := b } : Directive) = ⟨t.value, t.line, stmt.args, fileName o file, stmt'.includes, b, none, false⟩ := by
    rw [e2, e1]; rfl
  rw [e3]; exact this

/-- The directives added by a round are known, and have no blocks. -/
theorem step_next_nodes {env : Env} {o : ParseOptions} {configDir file : Str} {ctx : Ctx} {t : Tok} {toks : List Tok} {ps : PS}
    {new : List Directive} {toks' : List Tok} {ps' : PS} (h : step env o configDir file ctx t toks ps = .next new toks' ps') :
    ∀ d ∈ new, d.block = none ∧ Node env o configDir file ps'.included ctx.vals d := by
  have hc := step_cases env o configDir file ctx t toks ps
  rw [h] at hc
  cases hc with
  | comment h1 h2 h3 =>
    intro d hd
    split at hd
    · obtain rfl := List.mem_singleton.mp hd
      rename_i hp
      exact ⟨rfl, .comment _ _ hp⟩
    · cases hd
  | mapBad => intro d hd; cases hd
  | mapOk args comments term rest m R h1 h2 =>
    intro d hd
    obtain rfl := List.mem_singleton.mp hd
    have ht : term.value = c!";" := by
      unfold analyzeMapBody at h2
      unfold mapCtx at h1
      split at h1
      · split at h1
        · cases h1
          rename_i hs
          split at h2
          · rename_i hl; rw [hl] at hs; cases hs
          · split at h2
            · cases h2
            · rename_i hn; simpa using hn
        · cases h1
      · cases h1
    rw [ht] at h2
    exact ⟨rfl, .param t args m h1 h2 R.notComment⟩
  | ignored => intro d hd; cases hd
  | rejectSkip => intro d hd; cases hd
  | reject => intro d hd; cases hd
  | simple args comments term rest stmt stmt' ps' R h1 h2 h3 h4 h5 h6 =>
    intro d hd
    have ht := readArgs_term R.read
    have hb0 : stmt'.block = none := by
      have e1 := prepIf_some h4
      obtain ⟨e2, -⟩ := doInclude_ok (by rw [e1]; rfl) h5
      rw [e2, e1]; rfl
    rcases List.mem_append.mp hd with hd | hd
    · obtain rfl := List.mem_singleton.mp hd
      refine ⟨hb0, ?_⟩
      have := stmt_node R h1 h2 h3 h4 h5 none ?_
      · have e : ({ d with block := none } : Directive) = d := by rw [← hb0]; cases d; rfl
        rwa [e] at this
      · have : ¬ term.value = c!"{" := fun hv => by
          rw [(isTerm_is ht _).mpr hv] at h6; cases h6
        simp [this]
    · exact commentDirectives_node (readArgs_comments R.read (fun h => absurd rfl h)) d hd

/-- The directive of a block. -/
theorem step_block_nodes {env : Env} {o : ParseOptions} {configDir file : Str} {ctx : Ctx} {t : Tok} {toks : List Tok} {ps : PS}
    {stmt : Directive} {comments : List Str} {toks' : List Tok} {ps' : PS}
    (h : step env o configDir file ctx t toks ps = .block stmt comments toks' ps') :
    (∀ b, Node env o configDir file ps'.included ctx.vals { stmt with block := some b }) ∧
    ∀ d ∈ commentDirectives stmt.line (fileName o file) comments, d.block = none ∧ Node env o configDir file ps'.included ctx.vals d := by
  have hc := step_cases env o configDir file ctx t toks ps
  rw [h] at hc
  cases hc with
  | block args comments term rest stmt stmt' ps' R h1 h2 h3 h4 h5 h6 =>
    have ht := readArgs_term R.read
    refine ⟨fun b => stmt_node R h1 h2 h3 h4 h5 (some b) ?_,
      commentDirectives_node (readArgs_comments R.read (fun h => absurd rfl h))⟩
    have := (isTerm_is ht c!"{").mp h6
    simp only at this
    simp [this]

/-- Every directive a run returns is known. -/
theorem RunOk.nodes {env : Env} {o : ParseOptions} {configDir file : Str} {ctx : Ctx} {toks : List Tok} {ps : PS}
    {ds : List Directive} {toks' : List Tok} {ps' : PS} (h : RunOk env o configDir file ctx toks ps ds toks' ps') :
    ∀ d c, At d ctx.vals ds c → Node env o configDir file ps'.included c d := by
  induction h with
  | eof => exact fun d c h => absurd h at_nil
  | stop => exact fun d c h => absurd h at_nil
  | next ctx t toks ps new toks1 ps1 ds toks' ps' hs hr ih =>
    intro d c hd
    rcases at_append.mp hd with hd | hd
    · have hn := step_next_nodes hs
      obtain ⟨hd', rfl⟩ := at_flat (fun d hd => (hn d hd).1) hd
      obtain ⟨more, hm⟩ := (included_rel o file).runOk hr
      rw [hm]; exact (hn d hd').2.mono
    · exact ih d c hd
  | block ctx t toks ps stmt comments toks1 ps1 b toks2 ps2 ds toks' ps' hs h1 h2 ih1 ih2 =>
    intro d c hd
    obtain ⟨hb, hcm⟩ := step_block_nodes hs
    obtain ⟨m2, hm2⟩ := (included_rel o file).runOk h2
    obtain ⟨m1, hm1⟩ := (included_rel o file).runOk h1
    rw [enterBlockCtx_included] at hm1
    rcases at_cons_block rfl hd with ⟨rfl, rfl⟩ | hd | hd
    · rw [hm2, hm1, List.append_assoc]; exact (hb b).mono
    · rw [hm2]
      refine (ih1 d c ?_).mono
      rw [enterBlockCtx_vals]; exact hd
    · rcases at_append.mp hd with hd | hd
      · obtain ⟨hd', rfl⟩ := at_flat (fun d hd => (hcm d hd).1) hd
        rw [hm2, hm1, List.append_assoc]; exact (hcm d hd').2.mono
      · exact ih2 d c hd

/-- The same for the files of the worklist: config `i` was parsed in some context, the first one in that of the worklist. -/
theorem FilesOk.nodes {env : Env} {o : ParseOptions} {configDir : Str} {ps ps' : PS} {cs : List Config}
    (h : FilesOk env o configDir ps cs ps') :
    (∃ more, ps'.included = ps.included ++ more) ∧
    ∀ cfg ∈ cs, ∃ ctx, ∀ d c, At d ctx cfg.parsed c → Node env o configDir cfg.file ps'.included c d := by
  induction h with
  | nil ps => exact ⟨⟨[], by simp⟩, fun c hc => by cases hc⟩
  | ok ps incl rest data ds toks' ps1 cs ps' hi ho hr hf ih =>
    obtain ⟨⟨m2, hm2⟩, ih⟩ := ih
    obtain ⟨m1, hm1⟩ := (included_rel o incl.path).runOk hr
    refine ⟨⟨m1 ++ m2, by rw [hm2, hm1, List.append_assoc]; rfl⟩, ?_⟩
    intro cfg hc
    rcases List.mem_cons.mp hc with rfl | hc
    · refine ⟨incl.ctx.vals, fun d c hd => ?_⟩
      rw [hm2]
      exact (hr.nodes d c hd).mono
    · exact ih cfg hc
  | bad ps incl rest data e toks' ps1 cs ps' hi ho hr hs hf ih =>
    obtain ⟨⟨m2, hm2⟩, ih⟩ := ih
    obtain ⟨m1, hm1⟩ := (included_rel o incl.path).runFail hr
    refine ⟨⟨m1 ++ m2, by rw [hm2]; simp [handleError, hm1]; rfl⟩, ?_⟩
    intro cfg hc
    rcases List.mem_cons.mp hc with rfl | hc
    · exact ⟨[], fun d c hd => absurd hd at_nil⟩
    · exact ih cfg hc

end Verif
