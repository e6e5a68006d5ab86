import Verif.Props.Include
import Verif.Props.Tree
import Verif.Props.Errors
import Verif.Props.Context
import Verif.Props.Stop
import Verif.Props.EnvProps
import Verif.Props.Relate
import Verif.Props.Combine
import Verif.Props.Lua
import Verif.Props.LuaTable
import Verif.Props.Goroutines
import Verif.Props.Upgrade
/-!
# Further examples

Theorems whose hypotheses are relations on runs, applied to concrete files.
-/
namespace Verif
open Spec

/-! ## C23, C24, C52: what is recorded for a statement -/

/-- A file with an unknown directive, a block that lacks its brace and a statement that is not ended. -/
def exBad : Env := exEnv [(c!"/e/a", c!"foo x;\nhttp;\nuser")]
def exBadOpts : ParseOptions := { exOpts with errorOnUnknownDirectives := true }

theorem exBad_toks : fileToks exBadOpts { runes := c!"foo x;\nhttp;\nuser" } = [⟨c!"foo", 1, false, none⟩, ⟨c!"x", 1, false, none⟩, ⟨c!";", 1, false, none⟩,
    ⟨c!"http", 2, false, none⟩, ⟨c!";", 2, false, none⟩, ⟨c!"user", 3, false, none⟩] := by decide +kernel

theorem exBad_visits {t : Tok} {toks : List Tok} {ps : PS} (h : Visits exBad exBadOpts c!"/e" c!"/e/a" { vals := [], arr := 0, cap := 0 }
    [⟨c!"foo", 1, false, none⟩, ⟨c!"x", 1, false, none⟩, ⟨c!";", 1, false, none⟩,
    ⟨c!"http", 2, false, none⟩, ⟨c!";", 2, false, none⟩, ⟨c!"user", 3, false, none⟩] (startFile (initPS c!"/e/a") []) { vals := [], arr := 0, cap := 0 } t toks ps) :
    FilesVisits exBad exBadOpts (exBad.dir c!"/e/a") (initPS c!"/e/a") c!"/e/a" { vals := [], arr := 0, cap := 0 } t toks ps := by
  refine .here _ ⟨c!"/e/a", { vals := [], arr := 0, cap := 0 }⟩ [] { runes := c!"foo x;\nhttp;\nuser" } _ _ _ _ rfl rfl ?_
  rw [exBad_toks]; exact h

theorem exBad_step1 : ∃ ps1, step exBad exBadOpts c!"/e" c!"/e/a" { vals := [], arr := 0, cap := 0 } ⟨c!"foo", 1, false, none⟩ [⟨c!"x", 1, false, none⟩, ⟨c!";", 1, false, none⟩,
    ⟨c!"http", 2, false, none⟩, ⟨c!";", 2, false, none⟩, ⟨c!"user", 3, false, none⟩] (startFile (initPS c!"/e/a") []) =
    .next [] [⟨c!"http", 2, false, none⟩, ⟨c!";", 2, false, none⟩, ⟨c!"user", 3, false, none⟩] ps1 := ⟨_, rfl⟩

theorem exBad_step2 (ps1 : PS) : ∃ ps2, step exBad exBadOpts c!"/e" c!"/e/a" { vals := [], arr := 0, cap := 0 } ⟨c!"http", 2, false, none⟩ [⟨c!";", 2, false, none⟩, ⟨c!"user", 3, false, none⟩] ps1 =
    .next [] [⟨c!"user", 3, false, none⟩] ps2 := ⟨_, rfl⟩

theorem exBad_ok : ∃ p, Parse exBad 2 c!"/e/a" exBadOpts = .ok p := by
  have : (match Parse exBad 2 c!"/e/a" exBadOpts with | .ok _ => true | _ => false) = true := by decide +kernel
  cases h : Parse exBad 2 c!"/e/a" exBadOpts with
  | ok p => exact ⟨p, rfl⟩
  | _ => rw [h] at this; cases this

/-- The unknown directive of the first line (`C23_unknown_recorded`). -/
example {p : Payload} (h : Parse exBad 2 c!"/e/a" exBadOpts = .ok p) : ∃ pe ∈ p.errors, pe.file = c!"/e/a" ∧ pe.line = some 1 ∧
    ∃ e, pe.error = .parse e ∧ e.what = c!"unknown directive \"foo\"" ∧ e.file = some c!"/e/a" ∧ e.line = some 1 := by
  refine C23_unknown_recorded h rfl (exBad_visits (.here _ _ _ _)) (args := [c!"x"]) (comments := []) (term := ⟨c!";", 1, false, none⟩) ⟨rfl, rfl, rfl, rfl⟩ rfl (by simp [exBadOpts, exOpts]) ?_
  rintro ⟨f, hf, h⟩
  simp [sources, exBadOpts, exOpts] at hf
  subst hf
  revert h; decide +kernel

/-- The missing brace of the second line (`C23_rejected_recorded`). -/
example {p : Payload} (h : Parse exBad 2 c!"/e/a" exBadOpts = .ok p) : ∃ pe ∈ p.errors, pe.file = c!"/e/a" ∧ pe.line = some 2 := by
  obtain ⟨ps1, h1⟩ := exBad_step1
  have := C23_rejected_recorded h (exBad_visits (.next _ _ _ _ _ _ _ _ _ _ _ h1 (.here _ _ _ _))) (args := []) (comments := []) (term := ⟨c!";", 2, false, none⟩)
    ⟨rfl, rfl, rfl, rfl⟩ (Or.inr ⟨rfl, by simp [exBadOpts, exOpts], rfl⟩)
  obtain ⟨-, -, -, pe, hpe, -, h2, h3⟩ := this
  exact ⟨pe, hpe, h2, h3⟩

/-- The end of the file within a statement (`C52_premature`). -/
example {p : Payload} (h : Parse exBad 2 c!"/e/a" exBadOpts = .ok p) : ∃ pe ∈ p.errors, pe.file = c!"/e/a" ∧ pe.line = some 3 ∧
    ∃ e, pe.error = .parse e ∧ e.unwrap = some c!"premature end of file" ∧ e.what = c!"premature end of file" ∧ e.file = some c!"/e/a" ∧ e.line = some 3 := by
  obtain ⟨ps1, h1⟩ := exBad_step1
  obtain ⟨ps2, h2⟩ := exBad_step2 ps1
  exact C52_premature h (exBad_visits (.next _ _ _ _ _ _ _ _ _ _ _ h1 (.next _ _ _ _ _ _ _ _ _ _ _ h2 (.here _ _ _ _)))) rfl rfl rfl (by simp)

/-! ## C13-C16, C20, C39: files and includes -/

theorem exThree_perm (l : List Str) : (exThree.mapOrder l).Perm l := List.Perm.refl _

def exThreePay : Payload := okPayload [
    (c!"/e/n", [incl 1 c!"a" [1], incl 2 c!"/e/a" [1], blk c!"http" 3 [] [incl 3 c!"b" [2]]]),
    (c!"/e/a", [dir c!"user" 1 [c!"x"]]), (c!"/e/b", [blk c!"server" 1 [] []])]

theorem exThree_parse : Parse exThree 4 c!"/e/n" exOpts = .ok exThreePay := by decide +kernel

/-- More fuel does not matter (`C14_fuel`), no file twice (`C14_once`), the first one is the given one (`C15_first`). -/
example : Parse exThree 99 c!"/e/n" exOpts = .ok exThreePay ∧ (exThreePay.config.map (·.file)).Nodup ∧ ∃ c0 rest, exThreePay.config = c0 :: rest ∧ c0.file = c!"/e/n" :=
  ⟨(C14_fuel (by rw [exThree_parse]; simp) (by decide)).trans exThree_parse, C14_once exThree_parse, C15_first exThree_parse⟩

/-- The index of the include in `http` belongs to `/e/b` (`C15_includes`). -/
example : ∃ arg names, arg = c!"b" ∧ Resolves exThree (exThree.dir c!"/e/n") arg names ∧
    List.Forall₂ (fun f (i : Int) => ∃ (n : Nat) (c : Config), i = n ∧ exThreePay.config[n]? = some c ∧ c.file = f) names [2] := by
  obtain ⟨arg, names, -, h2, h3, -, h5⟩ := C15_includes exThree_parse rfl (cfg := exThreePay.config[0]) (by simp [exThreePay, okPayload]) (d := incl 3 c!"b" [2])
    (.deep (d' := blk c!"http" 3 [] [incl 3 c!"b" [2]]) (b := [incl 3 c!"b" [2]]) (by simp [exThreePay, okPayload]) rfl (.here (by simp))) rfl
  simp [incl] at h2
  exact ⟨arg, names, h2.symm, h3, h5⟩

/-- No cycle among the files of the payload (`C16_payload`), whatever is asked for (`C14_terminates`), and never a panic (`C13_partial`). -/
example (i : Nat) : ¬ Relation.TransGen (fun i j : Nat => ∃ d, Names exThreePay.config i d (j : Int)) i i := C16_payload exThree_perm exThree_parse rfl i

example (o : ParseOptions) (f : Str) : Parse exThree 4 f o ≠ .fuel := by
  refine C14_terminates exThree_perm [c!"/e/n", c!"/e/a", c!"/e/b"] ?_ f o 4 (by decide)
  intro k f data h
  by_contra hf
  simp only [List.mem_cons, List.not_mem_nil, or_false, not_or] at hf
  have h1 : (f == c!"/e/n") = false := by simpa using hf.1
  have h2 : (f == c!"/e/a") = false := by simpa using hf.2.1
  have h3 : (f == c!"/e/b") = false := by simpa using hf.2.2
  simp only [exThree, exEnv, List.lookup, h1, h2, h3] at h
  cases h

example : ¬ ∃ file ctx t toks ps, FilesVisits exThree exOpts (exThree.dir c!"/e/n") (initPS c!"/e/n") file ctx t toks ps ∧ EmptyIf exOpts file ctx t toks :=
  fun h => by
    have := (C13_partial exThree_perm (fuel := 4) (by rw [exThree_parse]; simp)).mpr h
    rw [exThree_parse] at this; cases this

/-- The error of a file that is not there, asked for on the command line (`C20_error`). -/
example {e : GoErr} (h : Parse exThree 4 c!"/e/x" exOpts = .err e) :
    (∃ k f, exThree.openFile k f = .error e ∧ (f = c!"/e/x" ∨ ∃ u, FileIncludes exThree exOpts (exThree.dir c!"/e/x") (initPS c!"/e/x") u f)) ∨
    (e = cycleError ∧ ∃ a, Relation.TransGen (FileIncludes exThree exOpts (exThree.dir c!"/e/x") (initPS c!"/e/x")) a a) := C20_error exThree_perm rfl h

example : ∃ e, Parse exThree 4 c!"/e/x" exOpts = .err e := ⟨.other c!"open /e/x: no such file or directory", by decide +kernel⟩

/-- The runs of the worklist loop that the theorems about `FilesOk` are about exist: here a cycle of two files (`C16_cycle_iff`). -/
example : ∃ a, Relation.TransGen (FileIncludes (exEnv [(c!"/e/n", c!"include a;"), (c!"/e/a", c!"include n;")]) exOpts c!"/e" (initPS c!"/e/n")) a a := by
  have hp : Parse (exEnv [(c!"/e/n", c!"include a;"), (c!"/e/a", c!"include n;")]) 9 c!"/e/n" exOpts = .err cycleError := by decide +kernel
  rcases C20_error (env := exEnv [(c!"/e/n", c!"include a;"), (c!"/e/a", c!"include n;")]) (fun l => List.Perm.refl _) rfl hp with ⟨k, f, h, -⟩ | ⟨-, h⟩
  · simp only [exEnv] at h
    split at h
    · cases h
    · rename_i hf
      simp [cycleError] at h
  · exact h

/-! ## C22, C26, C27, C30: what is in the tree -/

/-- `C26_checked` for the directive `user x` of the second file. -/
example : ∃ ctx : List Str, ∃ args term, CheckedArgs (dir c!"user" 1 [c!"x"]) args ∧ (term = c!";" ∨ term = c!"{" ∨ term = c!"}") ∧ (term = c!"{" ↔ False) ∧
    analyze c!"/e/a" ⟨c!"user", 1, args, [], none, none, none, false⟩ term ctx exOpts = none := by
  obtain ⟨ctx, -, h⟩ := C26_checked exThree_parse rfl (i := 1) (cfg := exThreePay.config[1]) rfl
  obtain ⟨args, term, h1, h2, h3, h4⟩ := h (dir c!"user" 1 [c!"x"]) ctx (.here (by simp [exThreePay, okPayload])) (by simp [IsComment, dir]) rfl
  exact ⟨ctx, args, term, h1, h2, by simpa [dir] using h3, h4⟩

/-- `C26_admitted` for `include b` within `http`: the context is `http`. -/
example : ∃ args term, CheckedArgs (incl 3 c!"b" [2]) args ∧
    StmtOk (sources exOpts) false false false (contextBit [c!"http"]) c!"include" args term := by
  obtain ⟨ctx, h0, h⟩ := C26_admitted exThree_parse rfl (i := 0) (cfg := exThreePay.config[0]) rfl
  obtain rfl := h0 rfl
  obtain ⟨args, term, h1, -, h3⟩ := h (incl 3 c!"b" [2]) [c!"http"] (.deep (d' := blk c!"http" 3 [] [incl 3 c!"b" [2]]) (by simp [exThreePay, okPayload]) rfl (.here (by simp)))
    (by simp [IsComment, incl]) rfl (by decide) (by decide)
  exact ⟨args, term, h1, h3⟩

def exMapEnv : Env := exEnv [(c!"/e/a", c!"user x; http { user { a; } map a b { user c; } }")]
def exMapOpts : ParseOptions := { exOpts with ignoreDirectives := [c!"user"] }
def exMapPay : Payload := okPayload [(c!"/e/a", [blk c!"http" 1 [] [blk c!"map" 1 [c!"a", c!"b"] [param c!"user" 1 [c!"c"]]]])]
theorem exMap_parse : Parse exMapEnv 3 c!"/e/a" exMapOpts = .ok exMapPay := by decide +kernel

/-- The parameter `user` of the map is the only directive of that name left (`C22_partial`), and it is one of the parameters the map takes (`C27_params`). -/
example : (∀ cfg ∈ exMapPay.config, ∀ d, Within d cfg.parsed → d.directive = c!"user" → d.isMapBlockParameter = true ∨ IsComment d ∧ false = true) ∧
    MapArgs c!"map" c!"user" 1 := by
  refine ⟨fun cfg hc d hd h => C22_partial exMap_parse cfg hc d hd (by simp [exMapOpts, h]), ?_⟩
  have := C27_params exMap_parse (cfg := exMapPay.config[0]) (by simp [exMapPay, okPayload]) (blk := blk c!"map" 1 [c!"a", c!"b"] [param c!"user" 1 [c!"c"]])
    (ds := [param c!"user" 1 [c!"c"]])
    (.deep (d' := blk c!"http" 1 [] [blk c!"map" 1 [c!"a", c!"b"] [param c!"user" 1 [c!"c"]]]) (by simp [exMapPay, okPayload]) rfl (.here (by simp))) rfl (by decide)
    (param c!"user" 1 [c!"c"]) (by simp)
  rcases this.2.2 with h | h
  · exact absurd h.2 (by simp [param])
  · exact h.2

/-- `C30_payload`: with SingleFile there is one config and no include indices. -/
example {p : Payload} (h : Parse exThree 9 c!"/e/n" { exOpts with singleFile := true } = .ok p) :
    (∃ c, p.config = [c] ∧ c.file = c!"/e/n") ∧ ∀ c ∈ p.config, ∀ d, Within d c.parsed → d.includes = none := C30_payload rfl h

/-- `C32_glob_order`: the order in which the glob gives the names does not matter. -/
example (o : ParseOptions) : Parse { exThree with glob := fun _ _ => .ok [c!"/e/n", c!"/e/a", c!"/e/b"] } 4 c!"/e/n" o = Parse exThree 4 c!"/e/n" o := by
  refine C32_glob_order (env := exThree) (fun n p => ?_) 4 c!"/e/n" o
  exact .ok (List.reverse_perm [c!"/e/b", c!"/e/a", c!"/e/n"]).symm

/-! ## C29 -/

/-- `C29_partial`: the first file of the worklist. -/
example : (∃ incl rest, (initPS c!"/e/n").includes = incl :: rest ∧ incl.path = c!"/e/n" ∧ incl.ctx.vals = []) := by
  refine ⟨_, _, rfl, ?_⟩
  rcases C29_partial (env := exThree) (o := exOpts) (.zero (initPS c!"/e/n")) (incl := ⟨c!"/e/n", { vals := [], arr := 0, cap := 0 }⟩) (rest := []) rfl with h | ⟨file, ctx, t, toks, ps1, -, h, -⟩
  · exact h
  · exact ⟨rfl, rfl⟩

/-! ## C35-C38 -/

theorem exComb : combined 9 exThreePay = .ok { status := c!"ok", config := [{ file := c!"/e/n", status := c!"ok", parsed := [dir c!"user" 1 [c!"x"], dir c!"user" 1 [c!"x"],
    blk c!"http" 3 [] [blk c!"server" 1 [] []]] }] } := by decide +kernel

/-- Combining again changes nothing (`C38_idempotent`), status and errors stay (`C36_errors_status`), and the tree is the expansion of the first one (`C35_combined_iff`). -/
example : ∃ q, combined 9 exThreePay = .ok q ∧ combined 1 q = .ok q ∧ q.errors = [] ∧ q.status = c!"ok" ∧ ∃ out, Expands exThreePay.config exThreePay.config[0].parsed out := by
  refine ⟨_, exComb, C38_idempotent exComb 0, (C36_errors_status (by simp [exThreePay, okPayload]) exComb).1, rfl, ?_⟩
  obtain ⟨out, -, h, -⟩ := (C35_combined_iff exThreePay _ _ _ rfl).mp ⟨9, exComb⟩
  exact ⟨out, h⟩

/-- The index 9 is too large (`C37_error_iff`, `C37_error_names`). -/
example : (∃ i d j, Reach (exPay [[exHttp [exInc [9]]]]).config i ∧ Names (exPay [[exHttp [exInc [9]]]]).config i d j ∧ j ≥ 1) := by
  have : combined 9 (exPay [[exHttp [exInc [9]]]]) = .err (indexError c!"f" (exInc [9]) 9) := rfl
  obtain ⟨i, c, d, j, h1, h2, h3, h4, -⟩ := C37_error_names this
  exact ⟨i, d, j, h1, h3, h4⟩

/-! ## C57 -/

/-- `C57_masks` for `content_by_lua_block`: one argument and a semicolon, nothing else. -/
example : ∃ ms, MatchLuaLatest c!"content_by_lua_block" = some ms ∧ ms ≠ [] ∧ ∀ m ∈ ms, MaskOk m c!";" [c!"x"] ∧ ¬ MaskOk m c!"{" [c!"x"] ∧ ¬ MaskOk m c!";" [] := by
  obtain ⟨ms, h1, h2, h3⟩ := C57_masks c!"content_by_lua_block" (by decide)
  refine ⟨ms, h1, h2, fun m hm => ⟨(h3 m hm _ _).mpr ⟨rfl, by decide⟩, fun h => ?_, fun h => ?_⟩⟩
  · exact absurd ((h3 m hm _ _).mp h).1 (by decide)
  · exact absurd ((h3 m hm _ _).mp h).2 (by decide)

/-! ## C65 -/

/-- The goroutines of `Combined` after a parse (`C65_parse`). -/
example {cs : List Config} {ps' : PS} (h : FilesOk exThree exOpts (exThree.dir c!"/e/n") (initPS c!"/e/n") cs ps') (ha : isAcyclic exThree ps' = false) :
    ∃ c0 rest K, cs = c0 :: rest ∧ ∀ {k : Nat} {s : CombSt}, CombRun cs k (.init c0) s → s.main ≠ .crashed ∧ s.orphans = [] ∧ k ≤ K ∧
      (k < K → ∃ s', CombStep cs s s') ∧ (k = K → s.chain = [] ∧ ∃ ds, s.main = .returned (.ok ds)) := C65_parse exThree_perm h ha

example : ∃ cs ps', FilesOk exThree exOpts (exThree.dir c!"/e/n") (initPS c!"/e/n") cs ps' ∧ isAcyclic exThree ps' = false := by
  rcases Parse_cases exThree_perm 4 c!"/e/n" exOpts with ⟨cs, ps', h1, ⟨h2, h3⟩ | ⟨h2, -⟩⟩ | ⟨e, ps', -, h⟩ | ⟨ps', -, h⟩
  · rw [exThree_parse] at h3; cases h3
  · exact ⟨cs, ps', h1, h2⟩
  · rw [exThree_parse] at h; cases e <;> cases h
  · rw [exThree_parse] at h; cases h

end Verif
