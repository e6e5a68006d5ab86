import Verif.Proofs.Causes
import Verif.Proofs.IncludeGraph
import Verif.Props.Context
import Verif.Props.EnvProps
import Verif.Proofs.IfArgs
import Verif.Spec.Frame
/-!
# Files that are not mentioned do not matter

The parser asks the file system only for the files and patterns of `CanReach` and `Asked` (Spec/Frame).
-/
namespace Verif
open Spec

/-- What two file systems have in common: the paths, the files `S` and the patterns `P`; `S` has the files of the patterns. -/
structure SameOn (env env' : Env) (S P : Str → Prop) : Prop where
  isAbs : env'.isAbs = env.isAbs
  join : env'.join = env.join
  open_ : ∀ n f, S f → env'.openFile n f = env.openFile n f
  glob : ∀ n p, P p → env'.glob n p = env.glob n p
  names : ∀ n p l, P p → hasMagic p = true → env.glob n p = .ok l → ∀ f ∈ l, S f
  plain : ∀ p, P p → hasMagic p = false → S p

section
variable {env env' : Env} {S P : Str → Prop} {o : ParseOptions} {configDir file : Str}

theorem SameOn.resolve (h : SameOn env env' S P) (a : Str) : resolve env' configDir a = resolve env configDir a := by
  unfold Verif.resolve
  rw [h.isAbs, h.join]

/-- An include directive whose argument is asked for. -/
theorem SameOn.doInclude (h : SameOn env env' S P) (ctx : Ctx) (stmt : Directive) (ps : PS)
    (ha : o.singleFile = false → stmt.directive = c!"include" → ∀ a as, stmt.args = a :: as → P (Verif.resolve env configDir a)) (hi : ∀ f ∈ ps.includes, S f.path) :
    doInclude env' o configDir file ctx stmt ps = doInclude env o configDir file ctx stmt ps ∧
    ∀ f ∈ (doInclude env o configDir file ctx stmt ps).2.includes, S f.path := by
  have hadd : ∀ (q : PS) (names : List Str), q.includes = ps.includes → (∀ f ∈ names, S f) →
      ∀ f ∈ (addIncludes file ctx stmt q names).2.includes, S f.path := by
    intro q names hq hn f hf
    obtain ⟨-, new, e2, e3⟩ := addIncludes_new file ctx stmt q names
    rw [e2, hq] at hf
    rcases List.mem_append.mp hf with hf | hf
    · exact hi f hf
    · exact hn _ (e3 f hf).2.1
  by_cases hc : (!o.singleFile && stmt.directive == c!"include") = true
  · have hc' := hc
    simp only [Bool.and_eq_true, Bool.not_eq_true', beq_iff_eq] at hc'
    have ha := ha hc'.1 hc'.2
    constructor
    · unfold Verif.doInclude
      rw [if_pos hc, if_pos hc]
      cases hargs : stmt.args with
      | nil => rfl
      | cons a as =>
        have ha := ha a as hargs
        simp only
        rw [← Verif.resolve, ← Verif.resolve, h.resolve]
        by_cases hm : hasMagic (Verif.resolve env configDir a) = true
        · rw [if_pos hm, if_pos hm, h.glob _ _ ha]
        · rw [if_neg hm, if_neg hm, h.open_ _ _ (h.plain _ ha (by simpa using hm))]
    · have hcs := doInclude_inclR env o configDir file ctx stmt ps
      generalize Verif.doInclude env o configDir file ctx stmt ps = r at hcs
      cases hcs with
      | other => exact hi
      | noArgs => exact hi
      | globErr => exact hi
      | openBad => exact hi
      | openFail => exact hi
      | globOk a as names _ hargs hm hg =>
        exact hadd _ _ rfl fun f hf => h.names _ _ _ (ha a as hargs) hm hg f ((C32_sorted names).1.mem_iff.mp hf)
      | openOk a as data _ hargs hm hg =>
        refine hadd _ _ rfl fun f hf => ?_
        obtain rfl := List.mem_singleton.mp hf
        exact h.plain _ (ha a as hargs) hm
  · unfold Verif.doInclude
    rw [if_neg hc, if_neg hc]
    exact ⟨rfl, hi⟩

theorem Words.head {mid : List Tok} {a : Str} {as texts : List Str} (h : Words mid (a :: as) texts) :
    ∃ mid1 texts1 u mid2, mid = mid1 ++ u :: mid2 ∧ Words mid1 [] texts1 ∧ WordTok u ∧ u.value = a := by
  generalize hl : a :: as = l at h
  induction h with
  | nil => cases hl
  | @word t mid args texts ht hw ih =>
    cases hl
    exact ⟨[], [], t, mid, rfl, .nil, ht, rfl⟩
  | @comment t text mid args texts ht hw ih =>
    obtain ⟨mid1, texts1, u, mid2, rfl, h1, h2, h3⟩ := ih hl
    exact ⟨t :: mid1, text :: texts1, u, mid2, rfl, .comment ht h1, h2, h3⟩

theorem Mentions.of_suffix {toks toks' : List Tok} {a : Str} (hs : toks' <:+ toks) (h : Mentions toks' a) : Mentions toks a := by
  obtain ⟨x, rfl⟩ := hs
  obtain ⟨pre, t, mid, texts, u, post, rfl, h⟩ := h
  exact ⟨x ++ pre, t, mid, texts, u, post, by simp, h⟩

/-- The first argument of a statement named include is mentioned. -/
theorem Reads.mentions {t : Tok} {toks : List Tok} {args comments : List Str} {term : Tok} {rest : List Tok} (R : Reads o t toks args comments term rest)
    (hn : t.value = c!"include") {a : Str} {as : List Str} (ha : args = a :: as) : Mentions (t :: toks) a := by
  obtain ⟨mid, as', texts, h1, h2, h3, -, -, -⟩ := readArgs_words R.read
  rw [List.nil_append, ha] at h3
  subst h3
  obtain ⟨mid1, texts1, u, mid2, rfl, h4, h5, h6⟩ := Words.head h2
  refine ⟨[], t, mid1, texts1, u, mid2 ++ term :: rest, by simp [h1], ?_, hn, h4, h5, h6⟩
  refine wordTok_iff.mpr ⟨?_, R.notComment⟩
  rw [← Bool.not_eq_true, isTerm_mark, Mark, Mark, Mark, hn]
  simp

/-- What a file mentions is asked for. -/
def AsksFor (env : Env) (o : ParseOptions) (configDir : Str) (P : Str → Prop) (toks : List Tok) : Prop :=
  o.singleFile = false → ∀ a, Mentions toks a → P (Verif.resolve env configDir a)

theorem AsksFor.suffix {toks toks' : List Tok} (h : AsksFor env o configDir P toks) (hs : toks' <:+ toks) : AsksFor env o configDir P toks' :=
  fun h1 a h2 => h h1 a (Mentions.of_suffix hs h2)

theorem prepIf_include {stmt stmt' : Directive} (h : prepIf stmt = some stmt') (hn : stmt'.directive = c!"include") : stmt' = stmt := by
  unfold prepIf at h
  by_cases hi : stmt.directive == c!"if"
  · rw [if_pos hi] at h
    have := (prepareIfArgs_some h).2
    rw [this, beq_iff_eq.mp hi] at hn
    exact absurd hn (by decide)
  · rw [if_neg hi] at h
    cases h; rfl

theorem SameOn.step (h : SameOn env env' S P) (ctx : Ctx) (t : Tok) (toks : List Tok) (ps : PS) (ha : AsksFor env o configDir P (t :: toks))
    (hi : ∀ f ∈ ps.includes, S f.path) :
    step env' o configDir file ctx t toks ps = step env o configDir file ctx t toks ps ∧ ∀ f ∈ (step env o configDir file ctx t toks ps).ps.includes, S f.path := by
  have hincl : ∀ {args comments : List Str} {term : Tok} {rest : List Tok} {stmt : Directive}, Reads o t toks args comments term rest →
      prepIf (baseStmt o file t args) = some stmt →
      Verif.doInclude env' o configDir file ctx stmt ps = Verif.doInclude env o configDir file ctx stmt ps ∧
      ∀ f ∈ (Verif.doInclude env o configDir file ctx stmt ps).2.includes, S f.path := by
    intro args comments term rest stmt R hp
    refine h.doInclude ctx stmt ps (fun hs hn a as hargs => ?_) hi
    obtain rfl := prepIf_include hp hn
    exact ha hs a (R.mentions hn hargs)
  have hc := step_cases env o configDir file ctx t toks ps
  generalize Verif.step env o configDir file ctx t toks ps = s at hc
  cases hc with
  | tokErr e h => exact ⟨StepR.step_eq (.tokErr e h), hi⟩
  | close h1 h2 => exact ⟨StepR.step_eq (.close h1 h2), hi⟩
  | comment h1 h2 h3 => exact ⟨StepR.step_eq (.comment h1 h2 h3), hi⟩
  | premature h1 h2 h3 h4 => exact ⟨StepR.step_eq (.premature h1 h2 h3 h4), hi⟩
  | mapFail _ _ _ _ _ _ R h1 h2 h3 => exact ⟨StepR.step_eq (.mapFail _ _ _ _ _ _ R h1 h2 h3), hi⟩
  | mapBad _ _ _ _ _ _ R h1 h2 h3 => exact ⟨StepR.step_eq (.mapBad _ _ _ _ _ _ R h1 h2 h3), hi⟩
  | mapOk _ _ _ _ _ R h1 h2 => exact ⟨StepR.step_eq (.mapOk _ _ _ _ _ R h1 h2), hi⟩
  | ignored _ _ _ _ R h1 h2 => exact ⟨StepR.step_eq (.ignored _ _ _ _ R h1 h2), hi⟩
  | rejectFail _ _ _ _ _ R h1 h2 h3 h4 => exact ⟨StepR.step_eq (.rejectFail _ _ _ _ _ R h1 h2 h3 h4), hi⟩
  | rejectSkip _ _ _ _ _ R h1 h2 h3 h4 h5 h6 => exact ⟨StepR.step_eq (.rejectSkip _ _ _ _ _ R h1 h2 h3 h4 h5 h6), hi⟩
  | rejectStop _ _ _ _ _ R h1 h2 h3 h4 h5 h6 => exact ⟨StepR.step_eq (.rejectStop _ _ _ _ _ R h1 h2 h3 h4 h5 h6), hi⟩
  | reject _ _ _ _ _ R h1 h2 h3 h4 h5 => exact ⟨StepR.step_eq (.reject _ _ _ _ _ R h1 h2 h3 h4 h5), hi⟩
  | panic _ _ _ _ R h1 h2 h3 h4 => exact ⟨StepR.step_eq (.panic _ _ _ _ R h1 h2 h3 h4), hi⟩
  | inclFail _ _ _ _ _ _ _ R h1 h2 h3 h4 h5 =>
    obtain ⟨e1, e2⟩ := hincl R h4
    rw [h5] at e1 e2
    exact ⟨StepR.step_eq (.inclFail _ _ _ _ _ _ _ R h1 h2 h3 h4 e1), e2⟩
  | simple _ _ _ _ _ _ _ R h1 h2 h3 h4 h5 h6 =>
    obtain ⟨e1, e2⟩ := hincl R h4
    rw [h5] at e1 e2
    exact ⟨StepR.step_eq (.simple _ _ _ _ _ _ _ R h1 h2 h3 h4 e1 h6), e2⟩
  | block _ _ _ _ _ _ _ R h1 h2 h3 h4 h5 h6 =>
    obtain ⟨e1, e2⟩ := hincl R h4
    rw [h5] at e1 e2
    exact ⟨StepR.step_eq (.block _ _ _ _ _ _ _ R h1 h2 h3 h4 e1 h6), e2⟩

theorem SameOn.parse (h : SameOn env env' S P) (fuel : Nat) : ∀ (ctx : Ctx) (toks : List Tok) (parsed : List Directive) (ps : PS),
    AsksFor env o configDir P toks → (∀ f ∈ ps.includes, S f.path) →
    parse env' o configDir file fuel ctx toks parsed ps = parse env o configDir file fuel ctx toks parsed ps ∧
    (∀ f ∈ (parse env o configDir file fuel ctx toks parsed ps).2.2.includes, S f.path) ∧ (parse env o configDir file fuel ctx toks parsed ps).2.1 <:+ toks := by
  induction fuel with
  | zero =>
    intro ctx toks parsed ps _ hi
    unfold Verif.parse
    exact ⟨rfl, hi, List.suffix_refl _⟩
  | succ fuel ih =>
    intro ctx toks parsed ps ha hi
    cases toks with
    | nil =>
      unfold Verif.parse
      exact ⟨rfl, hi, List.suffix_refl _⟩
    | cons t toks =>
      rw [parse_step, parse_step]
      obtain ⟨e1, e2⟩ := h.step (file := file) ctx t toks ps ha hi
      have hs := step_suffix env o configDir file ctx t toks ps
      rw [e1]
      generalize Verif.step env o configDir file ctx t toks ps = s at e2 hs
      have hcons : toks <:+ t :: toks := List.suffix_cons _ _
      cases s with
      | stop toks' ps' => exact ⟨rfl, e2, hs.trans hcons⟩
      | fail e toks' ps' => exact ⟨rfl, e2, hs.trans hcons⟩
      | next new toks' ps' =>
        obtain ⟨a1, a2, a3⟩ := ih ctx toks' (parsed ++ new) ps' (ha.suffix (hs.trans hcons)) e2
        exact ⟨a1, a2, a3.trans (hs.trans hcons)⟩
      | block stmt comments toks' ps' =>
        have hi' : ∀ f ∈ (enterBlockCtx stmt ctx ps').2.includes, S f.path := by
          intro f hf
          have hp : f.path ∈ (enterBlockCtx stmt ctx ps').2.paths := List.mem_map_of_mem hf
          rw [enterBlockCtx_paths] at hp
          obtain ⟨g, hg, hgf⟩ := List.mem_map.mp hp
          rw [← hgf]
          exact e2 g hg
        obtain ⟨a1, a2, a3⟩ := ih (enterBlockCtx stmt ctx ps').1 toks' [] (enterBlockCtx stmt ctx ps').2 (ha.suffix (hs.trans hcons)) hi'
        simp only
        rw [a1]
        generalize Verif.parse env o configDir file fuel (enterBlockCtx stmt ctx ps').1 toks' [] (enterBlockCtx stmt ctx ps').2 = r at a2 a3
        obtain ⟨r, toks2, ps2⟩ := r
        have hs2 := a3.trans (hs.trans hcons)
        cases r with
        | ok b =>
          obtain ⟨b1, b2, b3⟩ := ih ctx toks2 (parsed ++ [{ stmt with block := some b }] ++
              commentDirectives stmt.line (if o.combineConfigs then file else []) comments) ps2 (ha.suffix hs2) a2
          exact ⟨b1, b2, b3.trans hs2⟩
        | err e => exact ⟨rfl, a2, hs2⟩
        | panic => exact ⟨rfl, a2, hs2⟩
        | fuel => exact ⟨rfl, a2, hs2⟩

theorem SameOn.parseFiles (h : SameOn env env' S P) (hS : ∀ n f data, S f → env.openFile n f = .ok data → AsksFor env o configDir P (fileToks o data)) (fuel : Nat) :
    ∀ (ps : PS) (cs : List Config), (∀ f ∈ ps.includes, S f.path) →
    parseFiles env' o configDir fuel ps cs = parseFiles env o configDir fuel ps cs := by
  induction fuel with
  | zero => intro ps cs _; rfl
  | succ fuel ih =>
    intro ps cs hi
    unfold Verif.parseFiles
    cases hl : ps.includes with
    | nil => rfl
    | cons incl rest =>
      rw [hl] at hi
      simp only
      have hin := hi incl (by simp)
      rw [h.open_ _ _ hin]
      cases ho : env.openFile ps.opens incl.path with
      | error e => rfl
      | ok data =>
        simp only
        obtain ⟨a1, a2, -⟩ := h.parse (file := incl.path) ((lexWith (extLexersOf o.lexers) data.runes).length + 1) incl.ctx
          (lexWith (extLexersOf o.lexers) data.runes) [] { ps with includes := rest, opens := ps.opens + 1, cfgStatus := c!"ok", cfgErrors := [] }
          (hS _ _ _ hin ho) (fun f hf => hi f (List.mem_cons_of_mem _ hf))
        rw [a1]
        generalize Verif.parse env o configDir incl.path ((lexWith (extLexersOf o.lexers) data.runes).length + 1) incl.ctx
          (lexWith (extLexersOf o.lexers) data.runes) [] { ps with includes := rest, opens := ps.opens + 1, cfgStatus := c!"ok", cfgErrors := [] } = r at a2
        obtain ⟨r, toks2, ps2⟩ := r
        cases r with
        | ok parsed => exact ih _ _ a2
        | err e =>
          simp only
          cases o.stopParsingOnError with
          | true => rfl
          | false => exact ih _ _ a2
        | panic => rfl
        | fuel => rfl

end

end Verif
