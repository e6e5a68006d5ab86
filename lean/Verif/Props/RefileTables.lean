import Verif.Model.Tables.All
import Verif.Props.Refile
/-!
# C62 for the tables of the repository
-/
namespace Verif
open Spec

/-- The match functions of the repository. -/
def repoMatches : List MatchFunc :=
  [defaultDirectivesMatch, MatchAppProtectWAFv4, MatchAppProtectWAFv5, MatchGeoip2Latest, MatchHeadersMoreLatest, MatchLuaLatest, MatchNjsLatest, MatchNginxPlusR30, MatchNginxPlusR31,
    MatchNginxPlusR33, MatchNginxPlusR34, MatchNginxPlusR35, MatchNginxPlusR36, MatchNginxPlusR37, MatchNginxPlusLatest, MatchOss124, MatchOss126, MatchOssLatest, MatchOtelLatest]

theorem repo_if : (repoMatches.all fun f => ((f c!"if").getD []).all fun m => m.testBit 11 || m.testBit 12) = true := by decide +kernel

/-- C62.  The masks of `if` in the tables of the repository allow any number of arguments, so the condition of C42, C62, C67 and C68 on them holds for all options with such tables. -/
theorem C62_if_masks {o : ParseOptions} (h : ∀ f ∈ o.directiveSources, f ∈ repoMatches) (m : Nat) (hm : HasMask (sources o) c!"if" m) :
    m.testBit 11 = true ∨ m.testBit 12 = true := by
  obtain ⟨f, hf, ms, h1, h2⟩ := hm
  have hf' : f ∈ repoMatches := by
    unfold sources at hf
    split at hf
    · rw [List.mem_singleton.mp hf]; simp [repoMatches]
    · exact h f hf
  have := List.all_eq_true.mp (List.all_eq_true.mp repo_if f hf') m (by rw [h1]; exact h2)
  simpa using this

/-- C62 for options with tables of the repository: no condition on masks is left. -/
theorem C62_tables_partial {σ ι : Type} {os : OS σ} {read : σ → Str → Option Str} {file : Str → ι} (hdisk : Disk os read file)
    (isPrint : Char → Bool) (bo : BuildOptions) {env : Env} {fuel : Nat} {filename : Str} {o : ParseOptions} {p : Payload}
    (hparse : Parse env fuel filename o = .ok p) (herrors : p.errors = [])
    (hcombine : o.combineConfigs = false) (hlexers : o.lexers = []) (hsources : ∀ f ∈ o.directiveSources, f ∈ repoMatches)
    (hbuildable : ∀ cfg ∈ p.config, Rebuildable isPrint bo cfg.parsed) (hblank : ∀ cfg ∈ p.config, NoBlankEnd cfg.parsed)
    (hindent : 0 ≤ bo.indent) (hext : bo.extBuilders = none)
    {s s' : σ} {dir base : Str} (hbase : if dir = [] then (os.getwd s).2 = .ok base else base = dir)
    (hbuild : BuildFiles isPrint os s p dir bo = some (none, s')) (hfiles : (p.config.map fun c => file (buildPath os base c.file)).Nodup)
    {env' : Env} (hsame : SamePaths env env') (hperm : ∀ l, (env.mapOrder l).Perm l) (hperm' : ∀ l, (env'.mapOrder l).Perm l)
    (hread : ∀ n f text, read s' (buildPath os base f) = some text → env'.openFile n f = .ok { runes := text })
    {fuel' : Nat} (hfuel : p.config.length < fuel') :
    ∃ p', Parse env' fuel' filename o = .ok p' ∧ p'.status = p.status ∧ p'.errors = [] ∧ List.Forall₂ (Reparsed o bo) p.config p'.config :=
  C62_partial hdisk isPrint bo hparse herrors hcombine hlexers (C62_if_masks hsources) hbuildable hblank hindent hext hbase hbuild hfiles hsame hperm hperm' hread hfuel

/-- The condition is about masks that exist: the default table has an `if`. -/
example : ∃ m, HasMask (sources {}) c!"if" m ∧ m.testBit 12 = true :=
  ⟨_, ⟨_, List.mem_singleton.mpr rfl, ((defaultDirectivesMatch c!"if").getD []), by decide +kernel, List.getElem_mem (n := 0) (by decide +kernel)⟩, by decide +kernel⟩

end Verif
