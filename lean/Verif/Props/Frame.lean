import Verif.Proofs.Frame
import Verif.Proofs.Works
import Verif.Props.Ex
/-!
# C82: files that are not mentioned do not matter
-/
namespace Verif
open Spec

/-- The file can be reached from `filename`: include directives are looked for in the tokens of the lexer. -/
def Reachable (env : Env) (o : ParseOptions) (filename : Str) : Str → Prop :=
  CanReach (fun n f => (env.openFile n f).toOption.map (fileToks o)) (fun n p => (env.glob n p).toOption) (pathIn env.isAbs env.join (env.dir filename)) filename

/-- The path or pattern stands after include in a file that can be reached from `filename`. -/
def AskedFor (env : Env) (o : ParseOptions) (filename : Str) : Str → Prop :=
  Asked (fun n f => (env.openFile n f).toOption.map (fileToks o)) (fun n p => (env.glob n p).toOption) (pathIn env.isAbs env.join (env.dir filename)) filename

section
variable {env env' : Env} {o : ParseOptions} {filename : Str}

theorem resolve_pathIn (configDir a : Str) : resolve env configDir a = pathIn env.isAbs env.join configDir a := by
  unfold resolve pathIn
  cases env.isAbs a <;> rfl

/-- C82.  Two file systems that have the same files and matches where the configuration can reach: `Parse` gives the same, with any options, right or wrong. -/
theorem C82 (hisAbs : env'.isAbs = env.isAbs) (hjoin : env'.join = env.join) (hdir : env'.dir = env.dir) (hmap : env'.mapOrder = env.mapOrder)
    (hopen : ∀ n f, Reachable env o filename f → env'.openFile n f = env.openFile n f)
    (hglob : ∀ n p, AskedFor env o filename p → env'.glob n p = env.glob n p) (fuel : Nat) :
    Parse env' fuel filename o = Parse env fuel filename o := by
  have hsame : SameOn env env' (Reachable env o filename) (AskedFor env o filename) :=
    ⟨hisAbs, hjoin, hopen, hglob,
      fun n p l hp hm hg f hf => .pattern hp ((hasMagic_iff p).mp hm) (n := n) (l := l) (by simp only [hg]; rfl) hf,
      fun p hp hm => .file hp (fun hpat => by rw [(hasMagic_iff p).mpr hpat] at hm; cases hm)⟩
  have hall := hsame.parseFiles (o := o) (configDir := env.dir filename)
    (fun n f data hf ho _ a hm => by
      rw [resolve_pathIn]
      exact .mk hf (n := n) (ts := fileToks o data) (by simp only [ho]; rfl) hm) fuel (initPS filename) [] (fun f hf => by
      obtain rfl := List.mem_singleton.mp hf
      exact .main)
  have hac : ∀ ps, isAcyclic env' ps = isAcyclic env ps := fun ps => by unfold isAcyclic; rw [hmap]
  unfold Parse
  rw [hdir, hall]
  simp only [hac]

/-- C82.  With `SingleFile` only the file itself matters. -/
theorem C82_single (hs : o.singleFile = true) (hdir : env'.dir = env.dir) (hmap : env'.mapOrder = env.mapOrder) (hisAbs : env'.isAbs = env.isAbs)
    (hjoin : env'.join = env.join) (hopen : ∀ n, env'.openFile n filename = env.openFile n filename) (fuel : Nat) :
    Parse env' fuel filename o = Parse env fuel filename o := by
  have hsame : SameOn env env' (· = filename) (fun _ => False) :=
    ⟨hisAbs, hjoin, (fun n f hf => by rw [hf]; exact hopen n), (fun _ _ h => h.elim), (fun _ _ _ h => h.elim), fun _ h => h.elim⟩
  have hall := hsame.parseFiles (o := o) (configDir := env.dir filename)
    (fun n f data hf ho hns => by rw [hs] at hns; cases hns) fuel (initPS filename) [] (fun f hf => by
      obtain rfl := List.mem_singleton.mp hf
      rfl)
  have hac : ∀ ps, isAcyclic env' ps = isAcyclic env ps := fun ps => by unfold isAcyclic; rw [hmap]
  unfold Parse
  rw [hdir, hall]
  simp only [hac]

/-- The file system in which one file is another, or there is none of the name, or there is one. -/
def Env.withFile (env : Env) (g : Str) (x : Nat → Except GoErr FileData) : Env :=
  { env with openFile := fun n f => if f = g then x n else env.openFile n f }

/-- C82.  What a file contains that cannot be reached, or whether there is one, does not matter. -/
theorem C82_file {g : Str} (hg : ¬ Reachable env o filename g) (x : Nat → Except GoErr FileData) (fuel : Nat) :
    Parse (env.withFile g x) fuel filename o = Parse env fuel filename o := by
  refine C82 (env := env) (env' := env.withFile g x) rfl rfl rfl rfl (fun n f hf => ?_) (fun _ _ _ => rfl) fuel
  unfold Env.withFile
  by_cases h : f = g
  · subst h; exact absurd hf hg
  · simp only [h, if_false]

end

/-- The first word, if only comments stand before it. -/
def firstWord : List Tok → Option Str
  | [] => none
  | t :: ts => if t.isCommentTok then firstWord ts else if t.isTerm then none else some t.value

/-- What stands after include. -/
def mentioned : List Tok → List Str
  | [] => []
  | t :: ts => (if t.value == c!"include" then (firstWord ts).toList else []) ++ mentioned ts

theorem firstWord_iff {ts : List Tok} {a : Str} :
    firstWord ts = some a ↔ ∃ mid texts u post, ts = mid ++ u :: post ∧ Words mid [] texts ∧ WordTok u ∧ u.value = a := by
  induction ts with
  | nil => simp [firstWord]
  | cons t ts ih =>
    unfold firstWord
    by_cases hc : t.isCommentTok = true
    · rw [if_pos hc, ih]
      obtain ⟨text, ht⟩ := isCommentTok_iff.mp hc
      constructor
      · rintro ⟨mid, texts, u, post, rfl, h1, h2, h3⟩
        exact ⟨t :: mid, text :: texts, u, post, rfl, .comment ht h1, h2, h3⟩
      · rintro ⟨mid, texts, u, post, he, h1, h2, h3⟩
        cases mid with
        | nil =>
          cases he
          rw [(wordTok_iff.mp h2).2] at hc; cases hc
        | cons v mid =>
          cases he
          cases h1 with
          | comment _ h1 => exact ⟨mid, _, u, post, rfl, h1, h2, h3⟩
    · rw [if_neg hc]
      rw [Bool.not_eq_true] at hc
      have hno : ∀ {mid texts u post}, t :: ts = mid ++ u :: post → Words mid [] texts → mid = [] := by
        intro mid texts u post he h1
        cases mid with
        | nil => rfl
        | cons v mid =>
          cases he
          cases h1 with
          | comment ht h1 =>
            rw [isCommentTok_iff.mpr ⟨_, ht⟩] at hc; cases hc
      by_cases hterm : t.isTerm = true
      · rw [if_pos hterm]
        refine iff_of_false (fun h => by cases h) ?_
        rintro ⟨mid, texts, u, post, he, h1, h2, h3⟩
        obtain rfl := hno he h1
        cases he
        rw [(wordTok_iff.mp h2).1] at hterm; cases hterm
      · rw [if_neg hterm]
        rw [Bool.not_eq_true] at hterm
        constructor
        · rintro h
          cases h
          exact ⟨[], [], t, ts, rfl, .nil, wordTok_iff.mpr ⟨hterm, hc⟩, rfl⟩
        · rintro ⟨mid, texts, u, post, he, h1, h2, h3⟩
          obtain rfl := hno he h1
          cases he
          rw [h3]

theorem wordTok_include {t : Tok} (h : t.value = c!"include") : WordTok t := by
  rw [wordTok_iff, ← Bool.not_eq_true, isTerm_mark, Mark, Mark, Mark, h]
  refine ⟨by simp, ?_⟩
  unfold Tok.isCommentTok
  rw [h]
  cases t.quoted <;> decide

/-- What is mentioned can be computed. -/
theorem mentions_iff {toks : List Tok} {a : Str} : Mentions toks a ↔ a ∈ mentioned toks := by
  induction toks with
  | nil =>
    refine iff_of_false ?_ (by simp [mentioned])
    rintro ⟨pre, t, mid, texts, u, post, he, -⟩
    simp at he
  | cons v toks ih =>
    unfold mentioned
    rw [List.mem_append, ← ih]
    constructor
    · rintro ⟨pre, t, mid, texts, u, post, he, h1, h2, h3, h4, h5⟩
      cases pre with
      | nil =>
        cases he
        left
        rw [if_pos (by rw [h2]; rfl), firstWord_iff.mpr ⟨mid, texts, u, post, rfl, h3, h4, h5⟩]
        simp
      | cons w pre =>
        cases he
        exact Or.inr ⟨pre, t, mid, texts, u, post, rfl, h1, h2, h3, h4, h5⟩
    · rintro (h | ⟨pre, t, mid, texts, u, post, rfl, h⟩)
      · by_cases hv : v.value == c!"include"
        · rw [if_pos hv] at h
          obtain ⟨mid, texts, u, post, rfl, h1, h2, h3⟩ := firstWord_iff.mp (Option.mem_toList.mp h)
          exact ⟨[], v, mid, texts, u, post, rfl, wordTok_include (beq_iff_eq.mp hv), beq_iff_eq.mp hv, h1, h2, h3⟩
        · rw [if_neg hv] at h; cases h
      · exact ⟨v :: pre, t, mid, texts, u, post, rfl, h⟩

/-- A list of files that is closed under include contains all files that can be reached. -/
theorem reachable_of_closed {env : Env} {o : ParseOptions} {filename : Str} {F : Str → Prop} (hmain : F filename)
    (hfile : ∀ n f data, F f → env.openFile n f = .ok data → ∀ a ∈ mentioned (fileToks o data),
      (hasMagic (pathIn env.isAbs env.join (env.dir filename) a) = false → F (pathIn env.isAbs env.join (env.dir filename) a)) ∧
      (hasMagic (pathIn env.isAbs env.join (env.dir filename) a) = true → ∀ k l, env.glob k (pathIn env.isAbs env.join (env.dir filename) a) = .ok l → ∀ g ∈ l, F g))
    {f : Str} (h : Reachable env o filename f) : F f := by
  refine CanReach.rec (motive_1 := fun f _ => F f) (motive_2 := fun p _ => (hasMagic p = false → F p) ∧ (hasMagic p = true → ∀ k l, env.glob k p = .ok l → ∀ g ∈ l, F g))
    hmain ?_ ?_ ?_ h
  · intro p _ hp ih
    refine ih.1 ?_
    rw [← Bool.not_eq_true, hasMagic_iff]
    exact hp
  · intro p n l f _ hp hl hf ih
    refine ih.2 ((hasMagic_iff p).mpr hp) n l ?_ f hf
    cases hg : env.glob n p with
    | error e => rw [hg] at hl; cases hl
    | ok l' => rw [hg] at hl; cases hl; rfl
  · intro f n ts a _ ht hm ih
    cases ho : env.openFile n f with
    | error e => simp only [ho] at ht; cases ht
    | ok data =>
      simp only [ho] at ht
      cases ht
      exact hfile n f data ih ho a (mentions_iff.mp hm)

/-- The file z cannot be reached: what it contains does not matter, nor whether there is one. -/
def exFrame : List (Str × Str) := [(c!"/e/n", c!"user u;include # c\n a;"), (c!"/e/a", c!"user a;"), (c!"/e/z", c!"include n;")]

theorem exFrame_reach {f : Str} (h : Reachable (exEnv exFrame) exOpts c!"/e/n" f) : f ∈ [c!"/e/n", c!"/e/a"] := by
  refine reachable_of_closed (F := (· ∈ [c!"/e/n", c!"/e/a"])) (by decide) ?_ h
  intro n f data hf ho
  have hall : ∀ f ∈ [c!"/e/n", c!"/e/a"], ∀ a ∈ mentioned (lex ((exFrame.lookup f).getD [])), a = c!"a" := by decide +kernel
  have hd : data.runes = (exFrame.lookup f).getD [] := by
    rcases List.mem_cons.mp hf with rfl | hf
    · cases ho; rfl
    · obtain rfl := List.mem_singleton.mp hf
      cases ho; rfl
  intro a ha
  have : a = c!"a" := hall f hf a (by rw [← hd]; exact ha)
  subst this
  exact ⟨fun _ => by decide, fun h => absurd h (by decide)⟩

example (x : Nat → Except GoErr FileData) : Parse ((exEnv exFrame).withFile c!"/e/z" x) 3 c!"/e/n" exOpts =
    .ok (okPayload [(c!"/e/n", [dir c!"user" 1 [c!"u"], incl 1 c!"a" [1]]), (c!"/e/a", [dir c!"user" 1 [c!"a"]])]) := by
  rw [C82_file (fun h => absurd (exFrame_reach h) (by decide))]
  decide +kernel

/-- A file that can be reached matters. -/
example : Parse (exEnv exFrame) 4 c!"/e/z" exOpts ≠ Parse ((exEnv exFrame).withFile c!"/e/a" fun _ => .ok { runes := c!"user b;" }) 4 c!"/e/z" exOpts := by
  decide +kernel

end Verif
