import Verif.Props.Context
import Verif.Props.Combine
import Verif.Proofs.Refile
import Verif.Proofs.Upgrade
import Verif.Props.Errors
import Verif.Spec.Stands
/-!
# The contexts of the files of a payload
-/
namespace Verif
open Spec

/-! ## A round that includes a file leaves an include directive in the tree -/

/-- `d` has the index of `f`. -/
def NamesFile (included : List (Str × Int)) (d : Directive) (f : Str) : Prop := ∃ i, included.lookup f = some i ∧ i ∈ d.includes.getD []

theorem NamesFile.grow {a b : List (Str × Int)} {d : Directive} {f : Str} (h : NamesFile a d f) (hg : ∃ more, b = a ++ more) : NamesFile b d f := by
  obtain ⟨i, h1, h2⟩ := h
  obtain ⟨more, rfl⟩ := hg
  exact ⟨i, assoc_append h1, h2⟩

theorem addIncludes_names (o : ParseOptions) (file : Str) (ctx : Ctx) (stmt : Directive) (ps : PS) (names : List Str) {f : Str} (hf : f ∈ names) :
    NamesFile (addIncludes file ctx stmt ps names).2.included (addIncludes file ctx stmt ps names).1 f ∧
    (addIncludes file ctx stmt ps names).1.includes ≠ none := by
  obtain ⟨is, h1, -, h3⟩ := addIncludes_directive o file ctx stmt ps names
  have hne : names ≠ [] := by rintro rfl; cases hf
  have : ∃ i ∈ is, (addIncludes file ctx stmt ps names).2.included.lookup f = some i := by
    generalize (addIncludes file ctx stmt ps names).2.included = m at h3
    clear h1 hne
    induction h3 with
    | nil => cases hf
    | cons h _ ih =>
      rcases List.mem_cons.mp hf with rfl | hf
      · exact ⟨_, List.mem_cons_self .., h⟩
      · obtain ⟨i, hi, h⟩ := ih hf
        exact ⟨i, List.mem_cons_of_mem _ hi, h⟩
  obtain ⟨i, hi, hl⟩ := this
  refine ⟨⟨i, hl, ?_⟩, ?_⟩
  · rw [h1 hne]; simp [hi]
  · rw [h1 hne]; simp

theorem adds_step {env : Env} {o : ParseOptions} {configDir file : Str} {ctx : Ctx} {t : Tok} {toks : List Tok} {ps : PS} {names : List Str}
    (h : AddsNames env o configDir file ctx t toks ps names) {f : Str} (hf : f ∈ names) :
    ∃ d ps', d.directive = c!"include" ∧ d.includes ≠ none ∧ NamesFile ps'.included d f ∧
      ((∃ new toks1, step env o configDir file ctx t toks ps = .next (d :: new) toks1 ps') ∨
        ∃ comments toks1, step env o configDir file ctx t toks ps = .block d comments toks1 ps') := by
  have key : ∀ {args comments : List Str} {term : Tok} {rest : List Tok} {ps0 : PS}, Reads o t toks args comments term rest → mapCtx ctx.vals = none →
      contains o.ignoreDirectives t.value = false → analyze file (baseStmt o file t args) term.value ctx.vals o = none → t.value = c!"include" →
      doInclude env o configDir file ctx (baseStmt o file t args) ps = (.ok (addIncludes file ctx (baseStmt o file t args) ps0 names).1,
        (addIncludes file ctx (baseStmt o file t args) ps0 names).2) →
      ∃ d ps', d.directive = c!"include" ∧ d.includes ≠ none ∧ NamesFile ps'.included d f ∧
      ((∃ new toks1, step env o configDir file ctx t toks ps = .next (d :: new) toks1 ps') ∨
        ∃ comments toks1, step env o configDir file ctx t toks ps = .block d comments toks1 ps') := by
    intro args comments term rest ps0 hr h1 h2 h3 hv hd
    have hp : prepIf (baseStmt o file t args) = some (baseStmt o file t args) := by
      unfold prepIf
      rw [if_neg]
      show ¬ (t.value == c!"if") = true
      rw [hv]; decide
    obtain ⟨hn1, hn2⟩ := addIncludes_names o file ctx (baseStmt o file t args) ps0 names hf
    refine ⟨_, _, ?_, hn2, hn1, ?_⟩
    · rw [addIncludes_name]; exact hv
    · cases hb : term.is c!"{" with
      | false => exact Or.inl ⟨_, _, (StepR.simple (env := env) (configDir := configDir) _ _ _ _ _ _ _ hr h1 h2 h3 hp hd hb).step_eq⟩
      | true => exact Or.inr ⟨_, _, (StepR.block (env := env) (configDir := configDir) _ _ _ _ _ _ _ hr h1 h2 h3 hp hd hb).step_eq⟩
  have hinc : ∀ {args : List Str}, o.singleFile = false → t.value = c!"include" →
      (!o.singleFile && (baseStmt o file t args).directive == c!"include") = true := by
    intro args hs hv
    rw [hs]
    show (true && t.value == c!"include") = true
    rw [hv]; decide
  cases h with
  | glob args comments term rest a as names hr h1 h2 h3 hs hv ha hm hg =>
    refine key (ps0 := { ps with globs := ps.globs + 1 }) hr h1 h2 h3 hv ?_
    have hi := doInclude_inclR env o configDir file ctx (baseStmt o file t args) ps
    generalize hq : doInclude env o configDir file ctx (baseStmt o file t args) ps = r at hi
    cases hi with
    | other g1 => rw [hinc hs hv] at g1; cases g1
    | noArgs _ g2 => exact absurd (g2.symm.trans ha) (by simp)
    | globErr a' as' e g1 g2 g3 g4 =>
      obtain ⟨rfl, rfl⟩ := List.cons.inj (ha.symm.trans g2)
      rw [hg] at g4; cases g4
    | globOk a' as' names' g1 g2 g3 g4 =>
      obtain ⟨rfl, rfl⟩ := List.cons.inj (ha.symm.trans g2)
      rw [hg] at g4; cases g4; rfl
    | openBad a' as' e g1 g2 g3 =>
      obtain ⟨rfl, rfl⟩ := List.cons.inj (ha.symm.trans g2)
      rw [hm] at g3; cases g3
    | openFail a' as' e g1 g2 g3 =>
      obtain ⟨rfl, rfl⟩ := List.cons.inj (ha.symm.trans g2)
      rw [hm] at g3; cases g3
    | openOk a' as' data g1 g2 g3 =>
      obtain ⟨rfl, rfl⟩ := List.cons.inj (ha.symm.trans g2)
      rw [hm] at g3; cases g3
  | file args comments term rest a as data hr h1 h2 h3 hs hv ha hm hg =>
    refine key (ps0 := { ps with opens := ps.opens + 1 }) hr h1 h2 h3 hv ?_
    have hi := doInclude_inclR env o configDir file ctx (baseStmt o file t args) ps
    generalize hq : doInclude env o configDir file ctx (baseStmt o file t args) ps = r at hi
    cases hi with
    | other g1 => rw [hinc hs hv] at g1; cases g1
    | noArgs _ g2 => exact absurd (g2.symm.trans ha) (by simp)
    | globErr a' as' e g1 g2 g3 =>
      obtain ⟨rfl, rfl⟩ := List.cons.inj (ha.symm.trans g2)
      rw [hm] at g3; cases g3
    | globOk a' as' names' g1 g2 g3 =>
      obtain ⟨rfl, rfl⟩ := List.cons.inj (ha.symm.trans g2)
      rw [hm] at g3; cases g3
    | openBad a' as' e g1 g2 g3 g4 =>
      obtain ⟨rfl, rfl⟩ := List.cons.inj (ha.symm.trans g2)
      rw [hg] at g4; cases g4
    | openFail a' as' e g1 g2 g3 g4 =>
      obtain ⟨rfl, rfl⟩ := List.cons.inj (ha.symm.trans g2)
      rw [hg] at g4; cases g4
    | openOk a' as' data' g1 g2 g3 g4 =>
      obtain ⟨rfl, rfl⟩ := List.cons.inj (ha.symm.trans g2)
      rfl

/-- The include directive is in the tree, in the context of the round. -/
theorem Visits.at {env : Env} {o : ParseOptions} {configDir file : Str} {ctx ctx1 : Ctx} {toks toks1 : List Tok} {ps ps1 : PS} {t1 : Tok}
    (hv : Visits env o configDir file ctx toks ps ctx1 t1 toks1 ps1) {names : List Str} (ha : AddsNames env o configDir file ctx1 t1 toks1 ps1 names)
    {f : Str} (hf : f ∈ names) : ∀ {ds : List Directive} {toks' : List Tok} {ps' : PS}, RunOk env o configDir file ctx toks ps ds toks' ps' →
      ∃ d, At d ctx.vals ds ctx1.vals ∧ IsInclude d ∧ NamesFile ps'.included d f := by
  induction hv with
  | here ctx t toks ps =>
    intro ds toks' ps' hr
    obtain ⟨d, ps2, h1, h2, h3, h4⟩ := adds_step ha hf
    cases hr with
    | stop _ _ _ _ _ _ hs => rcases h4 with ⟨_, _, h4⟩ | ⟨_, _, h4⟩ <;> rw [h4] at hs <;> cases hs
    | next _ _ _ _ new toks1 ps1 ds _ _ hs hr =>
      rcases h4 with ⟨_, _, h4⟩ | ⟨_, _, h4⟩
      · rw [h4] at hs; cases hs
        exact ⟨d, .here (by simp), ⟨h1, h2⟩, h3.grow ((included_rel o file).runOk hr)⟩
      · rw [h4] at hs; cases hs
    | block _ _ _ _ stmt comments toks1 ps1 b toks2 ps2 ds _ _ hs hr1 hr2 =>
      rcases h4 with ⟨_, _, h4⟩ | ⟨_, _, h4⟩
      · rw [h4] at hs; cases hs
      · rw [h4] at hs; cases hs
        refine ⟨{ d with block := some b }, .here (by simp), ⟨h1, h2⟩, ?_⟩
        rw [← enterBlockCtx_included d ctx] at h3
        exact (h3.grow ((included_rel o file).runOk hr1)).grow ((included_rel o file).runOk hr2)
  | next ctx t toks ps new toks1 ps1 ctx' t' toks' ps' hs hv ih =>
    intro ds toks2 ps2 hr
    cases hr with
    | stop _ _ _ _ _ _ hs' => rw [hs] at hs'; cases hs'
    | next _ _ _ _ _ _ _ ds _ _ hs' hr =>
      rw [hs] at hs'; cases hs'
      obtain ⟨d, h1, h2⟩ := ih ha hr
      exact ⟨d, at_append.mpr (Or.inr h1), h2⟩
    | block _ _ _ _ _ _ _ _ _ _ _ _ _ _ hs' => rw [hs] at hs'; cases hs'
  | inside ctx t toks ps stmt comments toks1 ps1 ctx' t' toks' ps' hs hv ih =>
    intro ds toks2 ps2 hr
    cases hr with
    | stop _ _ _ _ _ _ hs' => rw [hs] at hs'; cases hs'
    | next _ _ _ _ _ _ _ _ _ _ hs' => rw [hs] at hs'; cases hs'
    | block _ _ _ _ _ _ _ _ b _ _ ds _ _ hs' hr1 hr2 =>
      rw [hs] at hs'; cases hs'
      obtain ⟨d, h1, h2, h3⟩ := ih ha hr1
      rw [enterBlockCtx_vals] at h1
      exact ⟨d, .deep (List.mem_cons_self ..) rfl h1, h2, h3.grow ((included_rel o file).runOk hr2)⟩
  | after ctx t toks ps stmt comments toks1 ps1 b toks2 ps2 ctx' t' toks' ps' hs hr0 hv ih =>
    intro ds toks3 ps3 hr
    cases hr with
    | stop _ _ _ _ _ _ hs' => rw [hs] at hs'; cases hs'
    | next _ _ _ _ _ _ _ _ _ _ hs' => rw [hs] at hs'; cases hs'
    | block _ _ _ _ _ _ _ _ b' _ _ ds _ _ hs' hr1 hr2 =>
      rw [hs] at hs'; cases hs'
      obtain ⟨rfl, rfl, rfl⟩ := hr0.det hr1
      obtain ⟨d, h1, h2⟩ := ih ha hr2
      exact ⟨d, at_cons (at_append.mpr (Or.inr h1)), h2⟩

/-! ## Contexts of files -/

/-- The stored context agrees with the context of the include directive as far as C29 goes. -/
def Approx (ctx c : List Str) : Prop := ctx.length = c.length ∧ (∀ n ≤ c.length, Fresh n → ctx.take n = c.take n)

theorem Approx.eq {ctx c : List Str} (h : Approx ctx c) (hf : Fresh c.length) : ctx = c := by
  have := h.2 _ (Nat.le_refl _) hf
  rwa [List.take_length, ← h.1, List.take_length] at this

/-- Each file, with the context it is parsed in, was included by a directive of an earlier file, or has an origin. -/
def FromEarlier (included : List (Str × Int)) : (Str → List Str → Prop) → List (Config × List Str) → Prop
  | _, [] => True
  | Orig, x :: rest => (∃ c, Orig x.1.file c ∧ Approx x.2 c) ∧
      FromEarlier included (fun f c => Orig f c ∨ (x.1.errors ≠ [] ∧ x.1.parsed = []) ∨ ∃ d, At d x.2 x.1.parsed c ∧ IsInclude d ∧ NamesFile included d f) rest

theorem FromEarlier.imp {included : List (Str × Int)} {xs : List (Config × List Str)} : ∀ {Orig Orig' : Str → List Str → Prop}, FromEarlier included Orig xs →
    (∀ f c, Orig f c → Orig' f c) → FromEarlier included Orig' xs := by
  induction xs with
  | nil => intros; trivial
  | cons x xs ih =>
    intro Orig Orig' h hi
    obtain ⟨⟨c, h1, h2⟩, h3⟩ := h
    exact ⟨⟨c, hi _ _ h1, h2⟩, ih h3 (fun f c h => h.imp (hi f c) id)⟩

theorem Good.imp {capOf : Nat → Nat} {Orig Orig' : Str → List Str → Prop} {ps : PS} (h : Good capOf Orig ps) (hi : ∀ f c, Orig f c → Orig' f c) : Good capOf Orig' ps := by
  intro f hf
  obtain ⟨h1, c, h2, h3⟩ := h f hf
  exact ⟨h1, c, hi _ _ h2, h3⟩

theorem FilesOk.contexts {env : Env} {o : ParseOptions} {configDir : Str} {ps ps' : PS} {cs : List Config} (h : FilesOk env o configDir ps cs ps') :
    ∀ {capOf : Nat → Nat} {Orig : Str → List Str → Prop}, Good capOf Orig ps →
      ∃ xs : List (Config × List Str), xs.map Prod.fst = cs ∧ FromEarlier ps'.included Orig xs ∧
        ∀ x ∈ xs, (∀ d c, At d x.2 x.1.parsed c → Node env o configDir x.1.file ps'.included c d) ∧
          ∃ s, ShapeOf (lexWith (extLexersOf o.lexers) s) x.1.parsed := by
  induction h with
  | nil ps hi => intro capOf Orig hg; exact ⟨[], rfl, trivial, by simp⟩
  | ok ps incl rest data ds toks' ps1 cs ps' hi hop hr hf ih =>
    intro capOf Orig hg
    have hgs : Good capOf Orig (startFile ps rest) := fun f hf => hg f (by rw [hi]; exact List.mem_cons_of_mem _ hf)
    obtain ⟨hck, c0, hc0, hlen, htake⟩ := hg incl (by rw [hi]; simp)
    obtain ⟨more, hmore⟩ := hf.nodes.1
    let Orig' : Str → List Str → Prop := fun f c => Orig f c ∨ ((fileConfig incl.path ps1 ds).errors ≠ [] ∧ (fileConfig incl.path ps1 ds).parsed = []) ∨
      ∃ d, At d incl.ctx.vals ds c ∧ IsInclude d ∧ NamesFile ps'.included d f
    obtain ⟨c1, -, -, h3⟩ := hr.good (Orig := Orig') (hgs.imp (fun _ _ h => Or.inl h)) hck (by
      intro ctx1 t1 toks1 ps2 hv f hfi
      obtain ⟨-, names, ha, hn⟩ := hfi
      obtain ⟨d, h1, h2, h3⟩ := hv.at ha hn hr
      exact Or.inr (Or.inr ⟨d, h1, h2, h3.grow ⟨more, hmore⟩⟩))
    obtain ⟨xs, e1, e2, e3⟩ := ih h3
    refine ⟨(fileConfig incl.path ps1 ds, incl.ctx.vals) :: xs, by simp [e1], ⟨⟨c0, hc0, hlen, htake⟩, e2⟩, ?_⟩
    intro x hx
    rcases List.mem_cons.mp hx with rfl | hx
    · refine ⟨?_, data.runes, nodes_shape hr.nodes hr.commentsFrom.1⟩
      intro d c hd
      have := hr.nodes d c hd
      rw [hmore]
      exact this.mono
    · exact e3 x hx
  | bad ps incl rest data e toks' ps1 cs ps' hi hop hr hs hf ih =>
    intro capOf Orig hg
    have hgs : Good capOf Orig (startFile ps rest) := fun f hf => hg f (by rw [hi]; exact List.mem_cons_of_mem _ hf)
    obtain ⟨hck, c0, hc0, hlen, htake⟩ := hg incl (by rw [hi]; simp)
    let Orig' : Str → List Str → Prop := fun f c => Orig f c ∨ ((fileConfig incl.path (handleError o incl.path ps1 e) []).errors ≠ [] ∧ (fileConfig incl.path (handleError o incl.path ps1 e) []).parsed = []) ∨
      ∃ d, At d incl.ctx.vals [] c ∧ IsInclude d ∧ NamesFile ps'.included d f
    obtain ⟨c1, -, -, h3⟩ := hr.good (Orig := Orig') (hgs.imp (fun _ _ h => Or.inl h)) hck (by
      intro ctx1 t1 toks1 ps2 hv f hfi
      exact Or.inr (Or.inl (by simp [fileConfig, handleError])))
    obtain ⟨xs, e1, e2, e3⟩ := ih (show Good c1 Orig' (handleError o incl.path ps1 e) from h3)
    refine ⟨(fileConfig incl.path (handleError o incl.path ps1 e) [], incl.ctx.vals) :: xs, by simp [e1], ⟨⟨c0, hc0, hlen, htake⟩, e2⟩, ?_⟩
    intro x hx
    rcases List.mem_cons.mp hx with rfl | hx
    · exact ⟨fun d c hd => absurd hd at_nil, [], fun d hd => absurd hd within_nil⟩
    · exact e3 x hx

theorem FromEarlier.index {included : List (Str × Int)} {xs : List (Config × List Str)} : ∀ {Orig : Str → List Str → Prop}, FromEarlier included Orig xs →
    ∀ {j : Nat} {x : Config × List Str}, xs[j]? = some x → ∃ c, Approx x.2 c ∧ (Orig x.1.file c ∨
      ∃ i y, i < j ∧ xs[i]? = some y ∧ ((y.1.errors ≠ [] ∧ y.1.parsed = []) ∨ ∃ d, At d y.2 y.1.parsed c ∧ IsInclude d ∧ NamesFile included d x.1.file)) := by
  induction xs with
  | nil => intro Orig h j x hx; cases hx
  | cons z xs ih =>
    intro Orig h j x hx
    obtain ⟨⟨c, h1, h2⟩, h3⟩ := h
    cases j with
    | zero => cases hx; exact ⟨c, h2, Or.inl h1⟩
    | succ j =>
      obtain ⟨c, h4, h5⟩ := ih h3 hx
      refine ⟨c, h4, ?_⟩
      rcases h5 with (h5 | h5) | ⟨i, y, h5, h6, h7⟩
      · exact Or.inl h5
      · exact Or.inr ⟨0, z, by omega, rfl, h5⟩
      · exact Or.inr ⟨i + 1, y, by omega, h6, h7⟩

/-- What is known of the contexts of the configs of a payload. -/
structure Contexts (env : Env) (o : ParseOptions) (configDir : Str) (included : List (Str × Int)) (cs : List Config) (ctxOf : Nat → List Str) : Prop where
  main : ctxOf 0 = []
  node : ∀ {i : Nat} {cfg : Config}, cs[i]? = some cfg → ∀ d c, At d (ctxOf i) cfg.parsed c → Node env o configDir cfg.file included c d
  shape : ∀ {i : Nat} {cfg : Config}, cs[i]? = some cfg → ∃ s, ShapeOf (lexWith (extLexersOf o.lexers) s) cfg.parsed
  from' : ∀ {j : Nat}, 0 < j → j < cs.length → ∃ (i : Nat) (cfg : Config), i < j ∧ cs[i]? = some cfg ∧
    ((cfg.errors ≠ [] ∧ cfg.parsed = []) ∨ ∃ d c, At d (ctxOf i) cfg.parsed c ∧ IsInclude d ∧ (j : Int) ∈ d.includes.getD [] ∧ Approx (ctxOf j) c)

theorem FilesOk.ctxOf {env : Env} {o : ParseOptions} {configDir filename : Str} {ps' : PS} {cs : List Config}
    (h : FilesOk env o configDir (initPS filename) cs ps') : ∃ ctxOf, Contexts env o configDir ps'.included cs ctxOf := by
  obtain ⟨xs, rfl, h2, h3⟩ := h.contexts (capOf := fun _ => 0) (Orig := fun f c => f = filename ∧ c = []) (by
    intro f hf
    simp only [initPS, List.mem_singleton] at hf
    subst hf
    exact ⟨⟨by simp [initPS], rfl, Or.inl ⟨rfl, rfl⟩⟩, [], ⟨rfl, rfl⟩, rfl, fun _ _ _ => rfl⟩)
  obtain ⟨hinc, hnodup⟩ := h.included_eq
  have hget : ∀ {i : Nat} {cfg : Config}, (xs.map Prod.fst)[i]? = some cfg → ∃ x, xs[i]? = some x ∧ x.1 = cfg := by
    intro i cfg hi
    rw [List.getElem?_map] at hi
    cases hx : xs[i]? with
    | none => rw [hx] at hi; cases hi
    | some x => rw [hx] at hi; cases hi; exact ⟨x, rfl, rfl⟩
  have hfile : ∀ {j n : Nat} {x : Config × List Str}, xs[j]? = some x → ((xs.map Prod.fst).map (·.file))[n]? = some x.1.file → n = j := by
    intro j n x hx hn
    have hj : ((xs.map Prod.fst).map (·.file))[j]? = some x.1.file := by rw [List.getElem?_map, List.getElem?_map, hx]; rfl
    obtain ⟨h4, -⟩ := List.getElem?_eq_some_iff.mp hn
    exact (List.getElem?_inj h4 hnodup).mp (hn.trans hj.symm)
  refine ⟨fun i => (xs[i]?.map Prod.snd).getD [], ?_, ?_, ?_, ?_⟩
  · cases hx : xs[0]? with
    | none => rfl
    | some x =>
      obtain ⟨c, h4, h5⟩ := h2.index hx
      rcases h5 with ⟨-, rfl⟩ | ⟨i, y, h5, -⟩
      · exact List.length_eq_zero_iff.mp h4.1
      · omega
  · intro i cfg hi d c hd
    obtain ⟨x, hx, rfl⟩ := hget hi
    rw [hx] at hd
    exact (h3 x (List.mem_of_getElem? hx)).1 d c hd
  · intro i cfg hi
    obtain ⟨x, hx, rfl⟩ := hget hi
    exact (h3 x (List.mem_of_getElem? hx)).2
  · intro j hj hlt
    rw [List.length_map] at hlt
    have hx := List.getElem?_eq_getElem hlt
    generalize xs[j] = x at hx
    obtain ⟨c, h4, h5⟩ := h2.index hx
    rcases h5 with ⟨h5, -⟩ | ⟨i, y, h5, h6, h7⟩
    · exfalso
      obtain ⟨c0, cs', hcs, hf⟩ := h.ne_nil _ _ rfl
      have : ((xs.map Prod.fst).map (·.file))[0]? = some x.1.file := by
        rw [hcs, h5]
        exact congrArg some hf
      have := hfile hx this
      omega
    · refine ⟨i, y.1, h5, by rw [List.getElem?_map, h6]; rfl, ?_⟩
      rcases h7 with h7 | ⟨d, h7, h8, k, h9, h10⟩
      · exact Or.inl h7
      · refine Or.inr ⟨d, c, by rw [h6]; exact h7, h8, ?_, by rw [hx]; exact h4⟩
        rw [hinc] at h9
        obtain ⟨n, rfl, hn⟩ := indexed_lookup h9
        rw [hfile hx hn] at h10
        exact h10

/-! ## Combined trees -/

/-- A directive of a config, and a context it has when includes are replaced. -/
def Comes (cs : List Config) (d : Directive) (c : List Str) : Prop := ∃ i ctx cfg, Stands cs i ctx ∧ cs[i]? = some cfg ∧ At d ctx cfg.parsed c

/-- A directive of a config with the includes of its block replaced. -/
def Expanded (cs : List Config) (d : Directive) (c : List Str) : Prop :=
  ∃ d' b, Comes cs d' c ∧ ¬ IsInclude d' ∧ d = { d' with block := b } ∧ (b = none ↔ d'.block = none)

theorem at_cons_cases {d x : Directive} {ctx c : List Str} {xs : List Directive} (h : At d ctx (x :: xs) c) :
    (d = x ∧ c = ctx) ∨ (∃ b, x.block = some b ∧ At d (enter ctx x.directive) b c) ∨ At d ctx xs c := by
  cases h with
  | here h =>
    rcases List.mem_cons.mp h with rfl | h
    · exact Or.inl ⟨rfl, rfl⟩
    · exact Or.inr (Or.inr (.here h))
  | deep h h1 h2 =>
    rcases List.mem_cons.mp h with rfl | h
    · exact Or.inr (Or.inl ⟨_, h1, h2⟩)
    · exact Or.inr (Or.inr (.deep h h1 h2))

mutual
theorem expands_at {cs : List Config} : ∀ {ds out}, Expands cs ds out → ∀ {ctx}, (∀ d c, At d ctx ds c → Comes cs d c) → ∀ d c, At d ctx out c → Expanded cs d c
  | _, _, .nil => fun _ d c h => absurd h at_nil
  | _, _, .keep (d := d0) hi hb hds => fun hc d c h => by
    rcases at_cons_cases h with ⟨rfl, rfl⟩ | ⟨b, h1, h2⟩ | h
    · refine ⟨d0, _, hc d0 _ (.here (List.mem_cons_self ..)), hi, rfl, ?_⟩
      exact expandsBlock_iff hb
    · exact expandsBlock_at hb (fun b' hb' d c hd => hc d c (.deep (List.mem_cons_self ..) hb' hd)) b h1 d c h2
    · exact expands_at hds (fun d c h => hc d c (at_cons h)) d c h
  | _, _, .incl (d := d0) hi hb hin hds => fun hc d c h => by
    rcases at_append.mp h with h | h
    · refine inlines_at hin ?_ d c h
      intro j hj
      obtain ⟨i, ctx', cfg, h1, h2, h3⟩ := hc d0 _ (.here (List.mem_cons_self ..))
      exact .incl h1 h2 h3 hi hj
    · exact expands_at hds (fun d c h => hc d c (at_cons h)) d c h
theorem expandsBlock_at {cs : List Config} : ∀ {o o'}, ExpandsBlock cs o o' → ∀ {ctx}, (∀ b, o = some b → ∀ d c, At d ctx b c → Comes cs d c) →
    ∀ b, o' = some b → ∀ d c, At d ctx b c → Expanded cs d c
  | _, _, .none => fun _ b h => by cases h
  | _, _, .some he => fun hc b h d c hd => by
    cases h
    exact expands_at he (hc _ rfl) d c hd
theorem inlines_at {cs : List Config} : ∀ {is out}, Inlines cs is out → ∀ {ctx}, (∀ j : Nat, (j : Int) ∈ is → Stands cs j ctx) →
    ∀ d c, At d ctx out c → Expanded cs d c
  | _, _, .nil => fun _ d c h => absurd h at_nil
  | _, _, .cons (i := i) (c := cfg) hcfg he hin => fun hs d c h => by
    rcases at_append.mp h with h | h
    · exact expands_at he (fun d c hd => ⟨i, _, cfg, hs i (List.mem_cons_self ..), hcfg, hd⟩) d c h
    · exact inlines_at hin (fun j hj => hs j (List.mem_cons_of_mem _ hj)) d c h
theorem expandsBlock_iff {cs : List Config} : ∀ {o o'}, ExpandsBlock cs o o' → (o' = none ↔ o = none)
  | _, _, .none => Iff.rfl
  | _, _, .some _ => by simp
end

/-- Every config stands in the context it was parsed in. -/
theorem Contexts.stands {env : Env} {o : ParseOptions} {configDir : Str} {included : List (Str × Int)} {cs : List Config} {ctxOf : Nat → List Str}
    (h : Contexts env o configDir included cs ctxOf) (herr : ∀ cfg ∈ cs, cfg.errors = []) (hdepth : ∀ i c, Stands cs i c → Fresh c.length) :
    ∀ j < cs.length, Stands cs j (ctxOf j) := by
  intro j
  induction j using Nat.strong_induction_on with
  | _ j ih =>
    intro hj
    rcases Nat.eq_zero_or_pos j with rfl | hpos
    · rw [h.main]; exact .main
    · obtain ⟨i, cfg, h1, h2, h3⟩ := h.from' hpos hj
      rcases h3 with h3 | ⟨d, c, h3, h4, h5, h6⟩
      · exact absurd (herr cfg (List.mem_of_getElem? h2)) h3.1
      · have hs : Stands cs j c := .incl (ih i h1 (by omega)) h2 h3 h4 h5
        rw [h6.eq (hdepth j c hs)]; exact hs

end Verif
