import Verif.Model.ParseShare
import Verif.Props.Ex
/-!
# C86: the options of `Parse` can be used again and shared

Specification: every call returns what `Parse` returns with options of its own that have the values last assigned to the fields.
-/
namespace Verif.Spec

/-- What a call uses: the function assigned to `Glob`, or else that of the file system. -/
def withGlob (env : Env) : Option GlobFn → Env
  | none => env
  | some g => { env with glob := g }

/-- The events, each call with options of its own. -/
def parseApart : Option GlobFn → ParseOptions → List ParseEvent → List (Res Payload)
  | _, _, [] => []
  | g, o, .parse env fuel filename :: es => Parse (withGlob env g) fuel filename o :: parseApart g o es
  | _, o, .setGlob g :: es => parseApart g o es
  | g, _, .setOpts o :: es => parseApart g o es

end Verif.Spec
namespace Verif
open Verif.Spec

/-- New options. -/
def newOptions (g : Option GlobFn) (o : ParseOptions) : SharedOptions :=
  { glob := match g with | none => .unset | some g => .user g, opts := o }

/-- The value of `Glob` stands for what was assigned. -/
def GlobVal.Is : GlobVal → Option GlobFn → Prop
  | .unset, g => g = none
  | .os, g => g = none
  | .user f, g => g = some f

theorem GlobVal.Is.env {v : GlobVal} {g : Option GlobFn} (h : v.Is g) (env : Env) : v.env env = withGlob env g := by
  cases v <;> (cases h; rfl)

theorem parseSession_eq (es : List ParseEvent) : ∀ (s : SharedOptions) (g : Option GlobFn), s.glob.Is g → parseSession s es = parseApart g s.opts es := by
  induction es with
  | nil => intro s g _; rfl
  | cons e es ih =>
    rintro ⟨v, o⟩ g h
    cases e with
    | parse env fuel filename =>
      cases v with
      | unset => cases h; exact congrArg (List.cons _) (ih ⟨.os, o⟩ none rfl)
      | os => cases h; exact congrArg (List.cons _) (ih ⟨.os, o⟩ none rfl)
      | user f => cases h; exact congrArg (List.cons _) (ih ⟨.user f, o⟩ (some f) rfl)
    | setGlob g' =>
      cases g' with
      | none => exact ih ⟨.unset, o⟩ none rfl
      | some f => exact ih ⟨.user f, o⟩ (some f) rfl
    | setOpts o' => exact ih ⟨v, o'⟩ g h

/-- C86.  A program that uses one options value for calls of `Parse`, with assignments to the options and changes of the file system between them, gets what it would get with
options of its own for every call. -/
theorem C86 (g : Option GlobFn) (o : ParseOptions) (es : List ParseEvent) : parseSession (newOptions g o) es = parseApart g o es :=
  parseSession_eq es _ g (by cases g <;> rfl)

/-- C86.  Any number of goroutines may call `Parse` with the same options: each returns what it would return alone, and the options are not changed otherwise than by the default
of `Glob`. -/
theorem C86_goroutines (jobs : Nat → ParseJob) (g : Option GlobFn) (o : ParseOptions) {s : SharedOptions} {gs : Nat → ParsePc}
    (h : ParseReach jobs (newOptions g o, fun _ => .start) (s, gs)) :
    s.glob.Is g ∧ s.opts = o ∧ ∀ i r, gs i = .done r → r = Parse (withGlob (jobs i).env g) (jobs i).fuel (jobs i).filename o := by
  suffices H : ∀ t, ParseReach jobs (newOptions g o, fun _ => .start) t → t.1.glob.Is g ∧ t.1.opts = o ∧ ∀ i,
      (t.2 i = .setGlob → g = none) ∧ (t.2 i = .run → t.1.glob ≠ .unset) ∧
        ∀ r, t.2 i = .done r → r = Parse (withGlob (jobs i).env g) (jobs i).fuel (jobs i).filename o by
    obtain ⟨h1, h2, h3⟩ := H _ h
    exact ⟨h1, h2, fun i => (h3 i).2.2⟩
  intro t ht
  induction ht with
  | refl => exact ⟨by cases g <;> rfl, rfl, fun i => ⟨by simp, by simp, by simp⟩⟩
  | tail _ hs ih =>
    cases hs with
    | @step s s' gs pc i hst =>
      obtain ⟨v, o'⟩ := s
      obtain ⟨hv, ho, hi⟩ := ih
      simp only at hv ho hi
      subst ho
      -- what is to be shown of the goroutine that moved, and that the others keep what they know
      suffices H : s'.glob.Is g ∧ s'.opts = o' ∧ (v ≠ .unset → s'.glob ≠ .unset) ∧ (pc = .setGlob → g = none) ∧ (pc = .run → s'.glob ≠ .unset) ∧
          ∀ r, pc = .done r → r = Parse (withGlob (jobs i).env g) (jobs i).fuel (jobs i).filename o' by
        obtain ⟨h1, h2, h3, h4, h5, h6⟩ := H
        refine ⟨h1, h2, fun j => ?_⟩
        by_cases hj : j = i
        · subst hj; simp only [if_true]; exact ⟨h4, h5, h6⟩
        · simp only [if_neg hj]; exact ⟨(hi j).1, fun hr => h3 ((hi j).2.1 hr), (hi j).2.2⟩
      cases hpc : gs i with
      | start =>
        rw [hpc] at hst
        cases v with
        | unset => cases hst; exact ⟨hv, rfl, id, fun _ => hv, by simp, by simp⟩
        | os => cases hst; exact ⟨hv, rfl, id, by simp, by simp, by simp⟩
        | user f => cases hst; exact ⟨hv, rfl, id, by simp, by simp, by simp⟩
      | setGlob =>
        rw [hpc] at hst
        cases hst
        exact ⟨(hi i).1 hpc, rfl, by simp, by simp, by simp, by simp⟩
      | run =>
        rw [hpc] at hst
        have hne := (hi i).2.1 hpc
        cases v with
        | unset => exact absurd rfl hne
        | os => cases hst; exact ⟨hv, rfl, id, by simp, by simp, fun r hr => by cases hr; rw [hv.env]⟩
        | user f => cases hst; exact ⟨hv, rfl, id, by simp, by simp, fun r hr => by cases hr; rw [hv.env]⟩
      | done r => rw [hpc] at hst; cases hst

/-- C86.  If `Glob` is nil two goroutines may be about to write it at the same time: a data race, although both write the same value.  If it is not nil nothing is written. -/
theorem C86_race (jobs : Nat → ParseJob) (g : Option GlobFn) (o : ParseOptions) :
    (∃ s gs, ParseReach jobs (newOptions g o, fun _ => .start) (s, gs) ∧ ∃ i j, i ≠ j ∧ gs i = .setGlob ∧ gs j = .setGlob) ↔ g = none := by
  constructor
  · rintro ⟨s, gs, h, i, j, -, hi, -⟩
    cases g with
    | none => rfl
    | some f =>
      have H : ∀ t, ParseReach jobs (newOptions (some f) o, fun _ => .start) t → t.1.glob = .user f ∧ ∀ i, t.2 i ≠ .setGlob := by
        intro t ht
        induction ht with
        | refl => exact ⟨rfl, by simp⟩
        | tail _ hs ih =>
          cases hs with
          | @step s s' gs pc i hst =>
            obtain ⟨v, o'⟩ := s
            obtain ⟨hv, hi⟩ := ih
            simp only at hv hi
            subst hv
            have key : s'.glob = .user f ∧ pc ≠ .setGlob := by
              cases hpc : gs i <;> rw [hpc] at hst
              · cases hst; exact ⟨rfl, by simp⟩
              · exact absurd hpc (hi i)
              · cases hst; exact ⟨rfl, by simp⟩
              · cases hst
            refine ⟨key.1, fun j => ?_⟩
            by_cases hj : j = i
            · simp only [hj, if_true]; exact key.2
            · simp only [if_neg hj]; exact hi j
      exact absurd hi ((H _ h).2 i)
  · rintro rfl
    exact ⟨_, _, .tail (.tail .refl (.step 0 rfl)) (.step 1 rfl), 0, 1, by decide, rfl, rfl⟩

/-! ## Examples -/

/-- A file system with the file `/f` that includes `*.c`, which matches what `Glob` says. -/
private def exShare (g : List Str) : Env :=
  { exEnv [(c!"/f", c!"include *.c;"), (c!"/a.c", c!"gzip on;"), (c!"/b.c", c!"gzip on;"), (c!"/u.c", c!"gzip on;")] with glob := fun _ _ => .ok g }

/-- The second call uses the file system as it is then, the third one the function that was assigned, the last one again the file system. -/
example : (parseSession { opts := exOpts } [.parse (exShare [c!"/a.c"]) 9 c!"/f", .parse (exShare [c!"/b.c"]) 9 c!"/f", .setGlob (some fun _ _ => .ok [c!"/u.c"]),
      .parse (exShare []) 9 c!"/f", .setGlob none, .parse (exShare [c!"/a.c", c!"/b.c"]) 9 c!"/f"]).map (fun r => match r with
        | .ok p => p.config.map Config.file
        | _ => []) =
    [[c!"/f", c!"/a.c"], [c!"/f", c!"/b.c"], [c!"/f", c!"/u.c"], [c!"/f", c!"/a.c", c!"/b.c"]] := by decide +kernel

end Verif
