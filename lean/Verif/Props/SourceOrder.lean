import Verif.Proofs.SourceOrder
import Verif.Props.RefileTables
import Verif.Props.Upgrade
/-!
# C93: the order of the directive sources
-/
namespace Verif
open Spec

/-- C93.  The sources are replaced by others that know the same names with the same masks, in whatever order.  Then Parse gives the same result up to the messages of errors: the same
directives, statuses, and errors about the same statements in the same places; if parsing stops at the first error, or if the masks of each name for a context agree in how a statement ends. -/
theorem C93_order {o : ParseOptions} {new : List MatchFunc} (hs : SameMasks (sources o) (sources { o with directiveSources := new }))
    (hu : o.stopParsingOnError = true ∨ OneEnding o.skipDirectiveContextCheck (sources o)) (env : Env) (fuel : Nat) (filename : Str) :
    OtherTextRes OtherTextPayload (Parse env fuel filename o) (Parse env fuel filename { o with directiveSources := new }) :=
  Parse_ot (analyze_order hs hu) env fuel filename

theorem sameMasks_perm {o : ParseOptions} {new : List MatchFunc} (h : new.Perm o.directiveSources) : SameMasks (sources o) (sources { o with directiveSources := new }) := by
  have hmem : ∀ f, f ∈ sources { o with directiveSources := new } ↔ f ∈ sources o := by
    intro f
    unfold sources
    simp only
    by_cases hn : o.directiveSources = []
    · have : new = [] := List.perm_nil.mp (hn ▸ h)
      rw [if_pos hn, if_pos this]
    · have : ¬ new = [] := fun e => hn (List.nil_perm.mp (e ▸ h))
      rw [if_neg hn, if_neg this]
      exact h.mem_iff
  constructor
  · intro n
    unfold Known
    simp only [hmem]
  · intro n m
    unfold HasMask
    simp only [hmem]

/-- C93.  In particular for the same sources in another order. -/
theorem C93_permuted {o : ParseOptions} {new : List MatchFunc} (h : new.Perm o.directiveSources)
    (hu : o.stopParsingOnError = true ∨ OneEnding o.skipDirectiveContextCheck (sources o)) (env : Env) (fuel : Nat) (filename : Str) :
    OtherTextRes OtherTextPayload (Parse env fuel filename o) (Parse env fuel filename { o with directiveSources := new }) :=
  C93_order (sameMasks_perm h) hu env fuel filename

/-- C93.  A configuration without errors has the same payload with the sources in any order, whatever their masks are. -/
theorem C93_no_errors {o : ParseOptions} {new : List MatchFunc} (hs : SameMasks (sources o) (sources { o with directiveSources := new }))
    {env : Env} {fuel : Nat} {filename : Str} {p : Payload} (hp : Parse env fuel filename o = .ok p) (he : p.errors = []) :
    Parse env fuel filename { o with directiveSources := new } = .ok p :=
  C63_same_payload ⟨fun n _ => (hs.known n).mp, fun n m b _ h1 _ h2 => ⟨m, (hs.masks n m).mp h1, h2, fun _ _ h => h⟩,
    fun n m _ h1 => ⟨m, (hs.masks n m).mp h1, fun _ _ h => h⟩⟩ (.inr fun n => (hs.known n).mpr) hp he

/-! ## The tables of the repository -/

/-- The tables behind the match functions. -/
def repoTables : List CharTable :=
  [chars_appProtectWAFv4Directives, chars_appProtectWAFv5Directives, chars_geoip2Directives, chars_headersMoreDirectives, chars_luaDirectives, chars_njsDirectives,
    chars_nginxPlusR30Directives, chars_nginxPlusR31Directives, chars_nginxPlusR33Directives, chars_nginxPlusR34Directives, chars_nginxPlusR35Directives, chars_nginxPlusR36Directives,
    chars_nginxPlusR37Directives, chars_nginxPlusLatestDirectives, chars_oss124Directives, chars_oss126Directives, chars_ossLatestDirectives, chars_otelDirectives]

/-- The entries with a mask for a block. -/
def blockEntries : CharTable := repoTables.flatMap fun t => t.filter fun e => e.2.any fun m => m.testBit 8

/-- The names of directives that can have a block. -/
def blockNames : List Str := (blockEntries.map (·.1)).dedup

/-- Two masks want the same ending if they have a context in common. -/
def endLike (m m' : Nat) : Bool := ((m &&& m') >>> 16) == 0 || m.testBit 8 == m'.testBit 8

/-- All masks of a name. -/
def repoMasks (n : Str) : List Nat := repoTables.flatMap fun t => (t.filter fun e => e.1 == n).flatMap (·.2)

theorem repo_ends : (blockNames.all fun n => (repoMasks n).all fun m => (repoMasks n).all fun m' => endLike m m') = true := by decide +kernel

theorem repo_plain : (repoTables.all fun t => t.all fun e => e.2.all fun m => m.testBit 8 || !m.testBit 9) = true := by decide +kernel

theorem repo_entry {f : MatchFunc} (hf : f ∈ repoMatches) {n : Str} {ms : List Nat} {m : Nat} (h : f n = some ms) (hm : m ∈ ms) : ∃ t ∈ repoTables, ∃ e ∈ t, e.1 = n ∧ m ∈ e.2 := by
  have main : ∀ f ∈ repoMatches.tail, ∀ ms : List Nat, f n = some ms → m ∈ ms → ∃ t ∈ repoTables, ∃ e ∈ t, e.1 = n ∧ m ∈ e.2 := by
    intro f hf ms h hm
    have tab : ∀ t : CharTable, t ∈ repoTables → t.toDir.get n = some ms → ∃ t ∈ repoTables, ∃ e ∈ t, e.1 = n ∧ m ∈ e.2 := by
      intro t ht h
      rw [toDir_get] at h
      obtain ⟨e, he, rfl⟩ := Option.map_eq_some_iff.mp h
      exact ⟨t, ht, e, List.mem_of_find?_eq_some he, by simpa using List.find?_some he, hm⟩
    simp only [repoMatches, List.tail_cons, List.mem_cons, List.not_mem_nil, or_false] at hf
    rcases hf with rfl | rfl | rfl | rfl | rfl | rfl | rfl | rfl | rfl | rfl | rfl | rfl | rfl | rfl | rfl | rfl | rfl | rfl
    · exact tab chars_appProtectWAFv4Directives (by simp [repoTables]) (by rw [← chars_appProtectWAFv4Directives_eq]; exact h)
    · exact tab chars_appProtectWAFv5Directives (by simp [repoTables]) (by rw [← chars_appProtectWAFv5Directives_eq]; exact h)
    · exact tab chars_geoip2Directives (by simp [repoTables]) (by rw [← chars_geoip2Directives_eq]; exact h)
    · exact tab chars_headersMoreDirectives (by simp [repoTables]) (by rw [← chars_headersMoreDirectives_eq]; exact h)
    · exact tab chars_luaDirectives (by simp [repoTables]) (by rw [← chars_luaDirectives_eq]; exact h)
    · exact tab chars_njsDirectives (by simp [repoTables]) (by rw [← chars_njsDirectives_eq]; exact h)
    · exact tab chars_nginxPlusR30Directives (by simp [repoTables]) (by rw [← chars_nginxPlusR30Directives_eq]; exact h)
    · exact tab chars_nginxPlusR31Directives (by simp [repoTables]) (by rw [← chars_nginxPlusR31Directives_eq]; exact h)
    · exact tab chars_nginxPlusR33Directives (by simp [repoTables]) (by rw [← chars_nginxPlusR33Directives_eq]; exact h)
    · exact tab chars_nginxPlusR34Directives (by simp [repoTables]) (by rw [← chars_nginxPlusR34Directives_eq]; exact h)
    · exact tab chars_nginxPlusR35Directives (by simp [repoTables]) (by rw [← chars_nginxPlusR35Directives_eq]; exact h)
    · exact tab chars_nginxPlusR36Directives (by simp [repoTables]) (by rw [← chars_nginxPlusR36Directives_eq]; exact h)
    · exact tab chars_nginxPlusR37Directives (by simp [repoTables]) (by rw [← chars_nginxPlusR37Directives_eq]; exact h)
    · exact tab chars_nginxPlusLatestDirectives (by simp [repoTables]) (by rw [← chars_nginxPlusLatestDirectives_eq]; exact h)
    · exact tab chars_oss124Directives (by simp [repoTables]) (by rw [← chars_oss124Directives_eq]; exact h)
    · exact tab chars_oss126Directives (by simp [repoTables]) (by rw [← chars_oss126Directives_eq]; exact h)
    · exact tab chars_ossLatestDirectives (by simp [repoTables]) (by rw [← chars_ossLatestDirectives_eq]; exact h)
    · exact tab chars_otelDirectives (by simp [repoTables]) (by rw [← chars_otelDirectives_eq]; exact h)
  rcases List.mem_cons.mp (show f ∈ defaultDirectivesMatch :: repoMatches.tail from hf) with rfl | hf
  · obtain ⟨g, hg, ms', h1, h2⟩ := ((C63_default n).2 m).mp ⟨_, List.mem_singleton.mpr rfl, ms, h, hm⟩
    refine main g ?_ ms' h1 h2
    simp only [List.mem_cons, List.not_mem_nil, or_false] at hg
    rcases hg with rfl | rfl | rfl <;> simp [repoMatches]
  · exact main f hf ms h hm

/-- C93.  The tables of the repository, any of them together, have one ending for each name and context, so the order of such sources matters to nothing but messages (as long as contexts are
checked). -/
theorem C93_tables {o : ParseOptions} (h : ∀ f ∈ o.directiveSources, f ∈ repoMatches) : OneEnding false (sources o) := by
  have entry : ∀ {n m}, HasMask (sources o) n m → ∃ t ∈ repoTables, ∃ e ∈ t, e.1 = n ∧ m ∈ e.2 := by
    rintro n m ⟨f, hf, ms, h1, h2⟩
    refine repo_entry ?_ h1 h2
    unfold sources at hf
    split at hf
    · rw [List.mem_singleton.mp hf]; simp [repoMatches]
    · exact h f hf
  have inMasks : ∀ {n m}, (∃ t ∈ repoTables, ∃ e ∈ t, e.1 = n ∧ m ∈ e.2) → m ∈ repoMasks n := by
    rintro n m ⟨t, ht, e, he, rfl, hm⟩
    exact List.mem_flatMap.mpr ⟨t, ht, List.mem_flatMap.mpr ⟨e, List.mem_filter.mpr ⟨he, by simp⟩, hm⟩⟩
  have isBlock : ∀ {n m}, (∃ t ∈ repoTables, ∃ e ∈ t, e.1 = n ∧ m ∈ e.2) → m.testBit 8 = true → n ∈ blockNames := by
    rintro n m ⟨t, ht, e, he, rfl, hm⟩ h8
    exact List.mem_dedup.mpr (List.mem_map.mpr ⟨e, List.mem_flatMap.mpr ⟨t, ht, List.mem_filter.mpr ⟨he, List.any_eq_true.mpr ⟨m, hm, h8⟩⟩⟩, rfl⟩)
  have common : ∀ {n m m'}, HasMask (sources o) n m → HasMask (sources o) n m' → (∃ b, 16 ≤ b ∧ m.testBit b = true ∧ m'.testBit b = true) → n ∈ blockNames →
      m.testBit 8 = m'.testBit 8 := by
    rintro n m m' h1 h2 ⟨b, hb, b1, b2⟩ hn
    have := List.all_eq_true.mp (List.all_eq_true.mp (List.all_eq_true.mp repo_ends n hn) m (inMasks (entry h1))) m' (inMasks (entry h2))
    unfold endLike at this
    rcases Bool.or_eq_true .. ▸ this with hz | hz
    · exfalso
      have hz : (m &&& m') >>> 16 = 0 := by simpa using hz
      have : ((m &&& m') >>> 16).testBit (b - 16) = true := by
        rw [Nat.testBit_shiftRight, show 16 + (b - 16) = b by omega, Nat.testBit_and, b1, b2]; rfl
      rw [hz] at this
      simp at this
    · simpa using hz
  intro n m m' h1 h2 hb
  have hb' : ∃ b, 16 ≤ b ∧ m.testBit b = true ∧ m'.testBit b = true := by
    rcases hb with hb | hb
    · cases hb
    · exact hb
  constructor
  · cases e1 : m.testBit 8 with
    | true => rw [← e1]; exact common h1 h2 hb' (isBlock (entry h1) e1)
    | false =>
      cases e2 : m'.testBit 8 with
      | true =>
        have := common h1 h2 hb' (isBlock (entry h2) e2)
        rw [e1, e2] at this
        exact this
      | false => rfl
  · intro h8
    obtain ⟨t, ht, e, he, -, hm⟩ := entry h1
    have := List.all_eq_true.mp (List.all_eq_true.mp (List.all_eq_true.mp repo_plain t ht) e he) m hm
    rw [h8] at this
    simpa using this

/-- C93.  Tables of the repository as sources, in another order. -/
theorem C93_repository {o : ParseOptions} {new : List MatchFunc} (h : ∀ f ∈ o.directiveSources, f ∈ repoMatches) (hc : o.skipDirectiveContextCheck = false) (hp : new.Perm o.directiveSources)
    (env : Env) (fuel : Nat) (filename : Str) : OtherTextRes OtherTextPayload (Parse env fuel filename o) (Parse env fuel filename { o with directiveSources := new }) :=
  C93_permuted hp (.inr (by rw [hc]; exact C93_tables h)) env fuel filename

/-- C93.  The default table or its three parts as sources. -/
theorem C93_default {o : ParseOptions} (h : o.directiveSources = []) (hc : o.skipDirectiveContextCheck = false) (env : Env) (fuel : Nat) (filename : Str) :
    OtherTextRes OtherTextPayload (Parse env fuel filename o)
      (Parse env fuel filename { o with directiveSources := [MatchNginxPlusLatest, MatchNjsLatest, MatchOtelLatest] }) := by
  have e : sources o = [defaultDirectivesMatch] := by unfold sources; rw [if_pos h]
  refine C93_order ⟨fun n => ?_, fun n m => ?_⟩ (.inr (by rw [hc]; exact C93_tables (by rw [h]; simp))) env fuel filename
  · rw [e]; exact (C63_default n).1
  · rw [e]; exact (C63_default n).2 m

/-! ## Examples -/

/-- A block `a` without arguments. -/
def exBlockA : MatchFunc := fun n => if n = c!"a" then some [ngxMainConf ||| ngxConfBlock ||| ngxConfNoArgs] else none

/-- A directive `a` with one argument and `;`. -/
def exSimpleA : MatchFunc := fun n => if n = c!"a" then some [ngxMainConf ||| ngxConfTake1] else none

/-- C93 is false if the masks do not agree: the order decides whether the block of a rejected statement is left out, or its contents are taken for what follows and its `}` for the end of
the file. -/
theorem C93_false : ∃ (env : Env) (fs gs : List MatchFunc) (p p' : Payload), gs.Perm fs ∧ Parse env 9 c!"/a" { directiveSources := fs } = .ok p ∧
    Parse env 9 c!"/a" { directiveSources := gs } = .ok p' ∧ p.config.map (·.parsed) = [[dir c!"c" 1 []]] ∧ p'.config.map (·.parsed) = [[dir c!"b" 1 []]] :=
  ⟨exEnv [(c!"/a", c!"a x y { b; } c;")], [exBlockA, exSimpleA], [exSimpleA, exBlockA],
    ⟨c!"failed", [⟨c!"/a", some 1, .parse { what := c!"directive \"a\" is not terminated by \";\"", file := some c!"/a", line := some 1, statement := c!"a x y", blockCtx := c!"main" }, none⟩],
      [⟨c!"/a", c!"failed", [⟨some 1, .parse { what := c!"directive \"a\" is not terminated by \";\"", file := some c!"/a", line := some 1, statement := c!"a x y", blockCtx := c!"main" }⟩],
        [dir c!"c" 1 []]⟩]⟩,
    ⟨c!"failed", [⟨c!"/a", some 1, .parse { what := c!"invalid number of arguments in \"a\" directive", file := some c!"/a", line := some 1, statement := c!"a x y", blockCtx := c!"main" }, none⟩],
      [⟨c!"/a", c!"failed", [⟨some 1, .parse { what := c!"invalid number of arguments in \"a\" directive", file := some c!"/a", line := some 1, statement := c!"a x y", blockCtx := c!"main" }⟩],
        [dir c!"b" 1 []]⟩]⟩,
    .swap .., by decide +kernel, by decide +kernel, rfl, rfl⟩

/-- The same sources in the two orders when parsing stops at the first error: the same error with other messages. -/
example : ∃ e e' : ParseError, Parse (exEnv [(c!"/a", c!"a x y { b; } c;")]) 9 c!"/a" { directiveSources := [exBlockA, exSimpleA], stopParsingOnError := true } = .err (.parse e) ∧
    Parse (exEnv [(c!"/a", c!"a x y { b; } c;")]) 9 c!"/a" { directiveSources := [exSimpleA, exBlockA], stopParsingOnError := true } = .err (.parse e') ∧
    e' = { e with what := e'.what } ∧ e'.what ≠ e.what :=
  ⟨{ what := c!"directive \"a\" is not terminated by \";\"", file := some c!"/a", line := some 1, statement := c!"a x y", blockCtx := c!"main" },
    { what := c!"invalid number of arguments in \"a\" directive", file := some c!"/a", line := some 1, statement := c!"a x y", blockCtx := c!"main" },
    by decide +kernel, by decide +kernel, rfl, by decide⟩

/-- Two tables of the repository. -/
example (env : Env) (fuel : Nat) : OtherTextRes OtherTextPayload (Parse env fuel c!"/a" { directiveSources := [MatchOssLatest, MatchLuaLatest] })
    (Parse env fuel c!"/a" { directiveSources := [MatchLuaLatest, MatchOssLatest] }) :=
  C93_repository (o := { directiveSources := [MatchOssLatest, MatchLuaLatest] }) (by simp [repoMatches]) rfl (.swap ..) env fuel c!"/a"

end Verif
