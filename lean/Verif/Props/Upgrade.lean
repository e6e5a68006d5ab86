import Verif.Proofs.Upgrade
import Verif.Props.Configs
import Verif.Props.Stop
import Verif.Props.Tree
import Verif.Props.Combine
import Verif.Model.Tables.All
import Verif.Props.Ex
/-!
# C63: a configuration stays valid under a newer table; C25 for whole parses
-/
namespace Verif
open Spec

/-! ## Parsing with other tables -/

/-- An error-free parse is the same under options that accept at least the same statements. -/
theorem Parse_recheck {o : ParseOptions} {fs : List MatchFunc} {u c a : Bool} {P : Str → Prop}
    (h : ∀ file stmt term ctx, P stmt.directive → analyze file stmt term ctx o = none → analyze file stmt term ctx (recheck o fs u c a) = none)
    {env : Env} {fuel : Nat} {filename : Str} {p : Payload} (hp : Parse env fuel filename o = .ok p) (he : p.errors = [])
    (hn : (∀ n, P n) ∨ o.combineConfigs = false ∧ ∀ cfg ∈ p.config, ∀ d, Within d cfg.parsed → P d.directive) :
    Parse env fuel filename (recheck o fs u c a) = .ok p := by
  obtain ⟨cs, ps', h1, -, h3, h4⟩ := Parse_ok hp
  have he' : ps'.payErrors = [] := by
    cases hc : o.combineConfigs with
    | false => rw [h3 hc] at he; exact he
    | true =>
      obtain ⟨c0, cs', hcs, -⟩ := h1.ne_nil _ _ rfl
      have := (C36_errors_status (p := rawPayload ps' cs) (by rw [rawPayload, hcs]; simp) (h4 hc)).1
      rw [he] at this
      exact this.symm
  have hn' : ∀ cfg ∈ cs, ∀ d, Within d cfg.parsed → P d.directive := by
    rcases hn with hn | ⟨hc, hn⟩
    · exact fun _ _ d _ => hn _
    · rw [h3 hc] at hn; exact hn
  have h2 := h1.recheck h he' hn'
  rw [← hp, h1.Parse_eq fuel, h2.Parse_eq fuel]

/-- **C63**.  A configuration that parses without errors gives the same payload when the sources are replaced by sources that cover them, in strict mode
or if the new sources know no other names (a name unknown to the old sources was not checked). -/
theorem C63_same_payload {o : ParseOptions} {new : List MatchFunc}
    (hc : Covers (fun _ => True) (sources o) (sources { o with directiveSources := new }))
    (hu : o.errorOnUnknownDirectives = true ∨ ∀ name, Known (sources { o with directiveSources := new }) name → Known (sources o) name)
    {env : Env} {fuel : Nat} {filename : Str} {p : Payload} (hp : Parse env fuel filename o = .ok p) (he : p.errors = []) :
    Parse env fuel filename { o with directiveSources := new } = .ok p :=
  Parse_recheck (P := fun _ => True) (u := o.errorOnUnknownDirectives) (c := o.skipDirectiveContextCheck) (a := o.skipDirectiveArgsCheck)
    (analyze_covers hc (hu.imp id fun h name _ => h name)) hp he (Or.inl fun _ => trivial)

/-- **C63**.  The same when the new sources do not cover some names, for a configuration that does not use them. -/
theorem C63_same_payload_without {P : Str → Prop} {o : ParseOptions} {new : List MatchFunc}
    (hc : Covers P (sources o) (sources { o with directiveSources := new }))
    (hu : o.errorOnUnknownDirectives = true ∨ ∀ name, P name → Known (sources { o with directiveSources := new }) name → Known (sources o) name)
    {env : Env} {fuel : Nat} {filename : Str} {p : Payload} (hp : Parse env fuel filename o = .ok p) (he : p.errors = [])
    (hcomb : o.combineConfigs = false) (hn : ∀ cfg ∈ p.config, ∀ d, Within d cfg.parsed → P d.directive) :
    Parse env fuel filename { o with directiveSources := new } = .ok p :=
  Parse_recheck (u := o.errorOnUnknownDirectives) (c := o.skipDirectiveContextCheck) (a := o.skipDirectiveArgsCheck)
    (analyze_covers hc hu) hp he (Or.inr ⟨hcomb, hn⟩)

/-- **C25**.  Switching off any of the checks does not change what an error-free parse gives. -/
theorem C25_parse {o : ParseOptions} {u c a : Bool} (hu : u = true → o.errorOnUnknownDirectives = true)
    (hc : o.skipDirectiveContextCheck = true → c = true) (ha : o.skipDirectiveArgsCheck = true → a = true)
    {env : Env} {fuel : Nat} {filename : Str} {p : Payload} (hp : Parse env fuel filename o = .ok p) (he : p.errors = []) :
    Parse env fuel filename { o with errorOnUnknownDirectives := u, skipDirectiveContextCheck := c, skipDirectiveArgsCheck := a } = .ok p := by
  refine Parse_recheck (P := fun _ => True) (fs := o.directiveSources) (fun file stmt term ctx _ h => ?_) hp he (Or.inl fun _ => trivial)
  obtain ⟨bit, hb⟩ := lookup_bit ctx
  rw [analyze_iff _ _ _ _ _ bit hb] at h ⊢
  refine ⟨fun h' => h.1 (hu h'), fun b e hk => ?_⟩
  obtain ⟨h1, h2⟩ := h.2 b e hk
  refine ⟨h1.imp hc id, ?_⟩
  rcases h2 with h2 | ⟨m, m1, m2, m3⟩
  · exact Or.inl (ha h2)
  · exact Or.inr ⟨m, m1, m2.imp hc id, m3⟩

/-! ## Covering, decided for tables -/

/-- The second mask admits what the first admits. -/
def maskLe (m m' : Nat) : Bool :=
  (!m'.testBit 9 || m.testBit 9) && (m.testBit 8 == m'.testBit 8) &&
  (m'.testBit 11 ||
    (!m.testBit 11 && (!m.testBit 13 || m'.testBit 13 || m'.testBit 12) && (!m.testBit 12 || m'.testBit 12) &&
      (!m.testBit 10 || m'.testBit 10 || m'.testBit 1 || m'.testBit 12) &&
      (List.range 8).all fun i => !m.testBit i || m'.testBit i || (m'.testBit 12 && decide (1 ≤ i)) || (m'.testBit 13 && decide (2 ≤ i))))

theorem maskLe_sound {m m' : Nat} (h : maskLe m m' = true) {term : Str} {args : List Str} (ok : MaskOk m term args) : MaskOk m' term args := by
  simp only [maskLe, Bool.and_eq_true, Bool.or_eq_true, Bool.not_eq_true', beq_iff_eq, List.all_eq_true, List.mem_range, decide_eq_true_eq] at h
  obtain ⟨⟨h9, h8⟩, ha⟩ := h
  obtain ⟨o1, o2, o3⟩ := ok
  refine ⟨fun h => o1 ?_, by rw [← h8]; exact o2, ?_⟩
  · rcases h9 with h9 | h9
    · rw [h] at h9; cases h9
    · exact h9
  · unfold ArgsOk
    rcases ha with ha | ⟨⟨⟨⟨n11, h13⟩, h12⟩, h10⟩, hi⟩
    · exact Or.inr (Or.inr (Or.inl ha))
    · rcases o3 with ⟨l, t⟩ | ⟨t, v, rfl, hv⟩ | t | ⟨t, l⟩ | ⟨t, l⟩
      · rcases hi args.length (by omega) with ((hi | hi) | hi) | hi
        · rw [t] at hi; cases hi
        · exact Or.inl ⟨l, hi⟩
        · exact Or.inr (Or.inr (Or.inr (Or.inl hi)))
        · exact Or.inr (Or.inr (Or.inr (Or.inr hi)))
      · rcases h10 with ((h10 | h10) | h10) | h10
        · rw [t] at h10; cases h10
        · exact Or.inr (Or.inl ⟨h10, v, rfl, hv⟩)
        · exact Or.inl ⟨by simp, h10⟩
        · exact Or.inr (Or.inr (Or.inr (Or.inl ⟨h10, by simp⟩)))
      · rw [t] at n11; cases n11
      · rcases h12 with h12 | h12
        · rw [t] at h12; cases h12
        · exact Or.inr (Or.inr (Or.inr (Or.inl ⟨h12, l⟩)))
      · rcases h13 with (h13 | h13) | h13
        · rw [t] at h13; cases h13
        · exact Or.inr (Or.inr (Or.inr (Or.inr ⟨h13, l⟩)))
        · exact Or.inr (Or.inr (Or.inr (Or.inl ⟨h13, by omega⟩)))

/-- The masks of an entry are covered. -/
def entryLe (ms ms' : List Nat) : Bool :=
  ms.all fun m => decide (m < 2 ^ 33) && ms'.any (maskLe m) &&
    (List.range 33).all fun b => decide (b < 16) || !m.testBit b || ms'.any fun m' => m'.testBit b && maskLe m m'

/-- Every entry of the second table is covered by an entry of the first (both in the order of names). -/
def tableLe : CharTable → CharTable → Bool
  | _, [] => true
  | [], _ :: _ => false
  | f :: u, e :: t => if e.1 == f.1 then entryLe e.2 f.2 && tableLe u t else tableLe u (e :: t)

theorem tableLe_spec (u t : CharTable) (h : tableLe u t = true) : ∀ e ∈ t, ∃ f ∈ u, f.1 = e.1 ∧ entryLe e.2 f.2 = true := by
  induction u generalizing t with
  | nil =>
    cases t with
    | nil => simp
    | cons e t => simp [tableLe] at h
  | cons f u ih =>
    cases t with
    | nil => simp
    | cons e t =>
      rw [tableLe] at h
      by_cases hef : (e.1 == f.1) = true
      · rw [if_pos hef, Bool.and_eq_true] at h
        intro x hx
        rcases List.mem_cons.mp hx with rfl | hx
        · exact ⟨f, by simp, (beq_iff_eq.mp hef).symm, h.1⟩
        · obtain ⟨g, g1, g2⟩ := ih t h.2 x hx
          exact ⟨g, by simp [g1], g2⟩
      · rw [if_neg hef] at h
        intro x hx
        obtain ⟨g, g1, g2⟩ := ih _ h x hx
        exact ⟨g, by simp [g1], g2⟩

theorem find_of_increasing {t : CharTable} (h : increasing (t.map (·.1)) = true) {e : Str × List Nat} (he : e ∈ t) :
    t.find? (fun x => x.1 == e.1) = some e := by
  induction t with
  | nil => cases he
  | cons x t ih =>
    rw [List.find?_cons]
    rcases List.mem_cons.mp he with rfl | he
    · simp
    · have hlt : x.1 < e.1 := increasing_lt h e.1 (List.mem_map.mpr ⟨e, he, rfl⟩)
      have : x.1 ≠ e.1 := fun hc => by rw [hc] at hlt; exact List.lt_irrefl _ hlt
      rw [beq_false_of_ne this]
      exact ih (increasing_tail h) he

/-- Tables that pass the test. -/
theorem covers_of_tableLe {ex : List Str} {f g : MatchFunc} {t u : CharTable} (hf : ∀ n, f n = t.toDir.get n) (hg : ∀ n, g n = u.toDir.get n)
    (hi : increasing (u.map (·.1)) = true) (h : tableLe u (t.filter fun e => !ex.contains e.1) = true) :
    Covers (· ∉ ex) [f] [g] := by
  have key : ∀ name ms, name ∉ ex → f name = some ms → ∃ ms', g name = some ms' ∧ entryLe ms ms' = true := by
    intro name ms hn hs
    rw [hf, toDir_get] at hs
    obtain ⟨e, he, rfl⟩ := Option.map_eq_some_iff.mp hs
    have hname : e.1 = name := by simpa using List.find?_some he
    subst hname
    obtain ⟨x, x1, x2, x3⟩ := tableLe_spec _ _ h e (List.mem_filter.mpr ⟨List.mem_of_find?_eq_some he, by simpa using hn⟩)
    refine ⟨x.2, ?_, x3⟩
    rw [hg, toDir_get, ← x2, find_of_increasing hi x1]
    rfl
  have masks : ∀ name m, name ∉ ex → HasMask [f] name m → ∃ ms ms', m ∈ ms ∧ g name = some ms' ∧ entryLe ms ms' = true := by
    rintro name m hn ⟨f', hf', ms, h1, h2⟩
    obtain rfl := List.mem_singleton.mp hf'
    obtain ⟨ms', h3, h4⟩ := key name ms hn h1
    exact ⟨ms, ms', h2, h3, h4⟩
  refine ⟨?_, ?_, ?_⟩
  · rintro name hn ⟨f', hf', hs⟩
    obtain rfl := List.mem_singleton.mp hf'
    obtain ⟨ms, hs⟩ := Option.isSome_iff_exists.mp hs
    obtain ⟨ms', h1, -⟩ := key name ms hn hs
    exact ⟨g, by simp, by simp [h1]⟩
  · intro name m b hn hm hb ht
    obtain ⟨ms, ms', h1, h2, h3⟩ := masks name m hn hm
    have := List.all_eq_true.mp h3 m h1
    simp only [Bool.and_eq_true, decide_eq_true_eq, List.all_eq_true, List.mem_range, Bool.or_eq_true, Bool.not_eq_true', List.any_eq_true] at this
    obtain ⟨⟨hlt, -⟩, hall⟩ := this
    have hb33 : b < 33 := by
      by_contra hn
      have := Nat.testBit_lt_two_pow (Nat.lt_of_lt_of_le hlt (Nat.pow_le_pow_right (by omega) (by omega : 33 ≤ b)))
      rw [ht] at this; cases this
    rcases hall b hb33 with (h' | h') | ⟨m', hm', h4, h5⟩
    · omega
    · rw [ht] at h'; cases h'
    · exact ⟨m', ⟨g, by simp, ms', h2, hm'⟩, h4, fun _ _ => maskLe_sound h5⟩
  · intro name m hn hm
    obtain ⟨ms, ms', h1, h2, h3⟩ := masks name m hn hm
    have := List.all_eq_true.mp h3 m h1
    simp only [Bool.and_eq_true, List.any_eq_true] at this
    obtain ⟨⟨-, m', hm', h4⟩, -⟩ := this
    exact ⟨m', ⟨g, by simp, ms', h2, hm'⟩, fun _ _ => maskLe_sound h4⟩

theorem covers_mono {P Q : Str → Prop} {old new : List MatchFunc} (h : Covers P old new) (hq : ∀ n, Q n → P n) : Covers Q old new :=
  ⟨fun n hn => h.known n (hq n hn), fun n m b hn => h.context n m b (hq n hn), fun n m hn => h.anywhere n m (hq n hn)⟩

theorem covers_trans {P : Str → Prop} {a b c : List MatchFunc} (h1 : Covers P a b) (h2 : Covers P b c) : Covers P a c where
  known n hn hk := h2.known n hn (h1.known n hn hk)
  context n m x hn hm hx ht := by
    obtain ⟨m1, a1, a2, a3⟩ := h1.context n m x hn hm hx ht
    obtain ⟨m2, b1, b2, b3⟩ := h2.context n m1 x hn a1 hx a2
    exact ⟨m2, b1, b2, fun _ _ h => b3 _ _ (a3 _ _ h)⟩
  anywhere n m hn hm := by
    obtain ⟨m1, a1, a3⟩ := h1.anywhere n m hn hm
    obtain ⟨m2, b1, b3⟩ := h2.anywhere n m1 hn a1
    exact ⟨m2, b1, fun _ _ h => b3 _ _ (a3 _ _ h)⟩

theorem covers_refl (P : Str → Prop) (a : List MatchFunc) : Covers P a a :=
  ⟨fun _ _ h => h, fun _ m _ _ h _ t => ⟨m, h, t, fun _ _ h => h⟩, fun _ m _ h => ⟨m, h, fun _ _ h => h⟩⟩

/-- Further tables on both sides do not matter. -/
theorem covers_append {P : Str → Prop} {a b : List MatchFunc} (h : Covers P a b) (more : List MatchFunc) : Covers P (a ++ more) (b ++ more) where
  known := by
    rintro n hn ⟨f, hf, hs⟩
    rcases List.mem_append.mp hf with hf | hf
    · obtain ⟨g, hg, hs⟩ := h.known n hn ⟨f, hf, hs⟩
      exact ⟨g, List.mem_append_left _ hg, hs⟩
    · exact ⟨f, List.mem_append_right _ hf, hs⟩
  context := by
    rintro n m x hn ⟨f, hf, hm⟩ hx ht
    rcases List.mem_append.mp hf with hf | hf
    · obtain ⟨m', ⟨g, hg, a1⟩, a2⟩ := h.context n m x hn ⟨f, hf, hm⟩ hx ht
      exact ⟨m', ⟨g, List.mem_append_left _ hg, a1⟩, a2⟩
    · exact ⟨m, ⟨f, List.mem_append_right _ hf, hm⟩, ht, fun _ _ h => h⟩
  anywhere := by
    rintro n m hn ⟨f, hf, hm⟩
    rcases List.mem_append.mp hf with hf | hf
    · obtain ⟨m', ⟨g, hg, a1⟩, a2⟩ := h.anywhere n m hn ⟨f, hf, hm⟩
      exact ⟨m', ⟨g, List.mem_append_left _ hg, a1⟩, a2⟩
    · exact ⟨m, ⟨f, List.mem_append_right _ hf, hm⟩, fun _ _ h => h⟩

/-! ## The tables -/

def chars_nginxPlusR30Directives : CharTable := chars% nginxPlusR30Directives
theorem chars_nginxPlusR30Directives_eq : nginxPlusR30Directives = chars_nginxPlusR30Directives.toDir := by kernel_rfl
def chars_nginxPlusR31Directives : CharTable := chars% nginxPlusR31Directives
theorem chars_nginxPlusR31Directives_eq : nginxPlusR31Directives = chars_nginxPlusR31Directives.toDir := by kernel_rfl

theorem covers_NginxPlusR30_NginxPlusR31 : Covers (· ∉ ([] : List Str)) [MatchNginxPlusR30] [MatchNginxPlusR31] :=
  covers_of_tableLe (t := chars_nginxPlusR30Directives) (u := chars_nginxPlusR31Directives) (fun _ => by rw [← chars_nginxPlusR30Directives_eq]; rfl)
    (fun _ => by rw [← chars_nginxPlusR31Directives_eq]; rfl) (by decide +kernel) (by decide +kernel)
theorem covers_NginxPlusR31_NginxPlusR33 : Covers (· ∉ ([] : List Str)) [MatchNginxPlusR31] [MatchNginxPlusR33] :=
  covers_of_tableLe (t := chars_nginxPlusR31Directives) (u := chars_nginxPlusR33Directives) (fun _ => by rw [← chars_nginxPlusR31Directives_eq]; rfl)
    (fun _ => by rw [← chars_nginxPlusR33Directives_eq]; rfl) (by decide +kernel) (by decide +kernel)
theorem covers_NginxPlusR33_NginxPlusR34 : Covers (· ∉ ([] : List Str)) [MatchNginxPlusR33] [MatchNginxPlusR34] :=
  covers_of_tableLe (t := chars_nginxPlusR33Directives) (u := chars_nginxPlusR34Directives) (fun _ => by rw [← chars_nginxPlusR33Directives_eq]; rfl)
    (fun _ => by rw [← chars_nginxPlusR34Directives_eq]; rfl) (by decide +kernel) (by decide +kernel)
theorem covers_NginxPlusR34_NginxPlusR35 : Covers (· ∉ ([] : List Str)) [MatchNginxPlusR34] [MatchNginxPlusR35] :=
  covers_of_tableLe (t := chars_nginxPlusR34Directives) (u := chars_nginxPlusR35Directives) (fun _ => by rw [← chars_nginxPlusR34Directives_eq]; rfl)
    (fun _ => by rw [← chars_nginxPlusR35Directives_eq]; rfl) (by decide +kernel) (by decide +kernel)
theorem covers_NginxPlusR35_NginxPlusR36 : Covers (· ∉ ([] : List Str)) [MatchNginxPlusR35] [MatchNginxPlusR36] :=
  covers_of_tableLe (t := chars_nginxPlusR35Directives) (u := chars_nginxPlusR36Directives) (fun _ => by rw [← chars_nginxPlusR35Directives_eq]; rfl)
    (fun _ => by rw [← chars_nginxPlusR36Directives_eq]; rfl) (by decide +kernel) (by decide +kernel)
theorem covers_NginxPlusR36_NginxPlusR37 : Covers (· ∉ ([] : List Str)) [MatchNginxPlusR36] [MatchNginxPlusR37] :=
  covers_of_tableLe (t := chars_nginxPlusR36Directives) (u := chars_nginxPlusR37Directives) (fun _ => by rw [← chars_nginxPlusR36Directives_eq]; rfl)
    (fun _ => by rw [← chars_nginxPlusR37Directives_eq]; rfl) (by decide +kernel) (by decide +kernel)
theorem covers_NginxPlusR37_NginxPlusLatest : Covers (· ∉ ([] : List Str)) [MatchNginxPlusR37] [MatchNginxPlusLatest] :=
  covers_of_tableLe (t := chars_nginxPlusR37Directives) (u := chars_nginxPlusLatestDirectives) (fun _ => by rw [← chars_nginxPlusR37Directives_eq]; rfl)
    (fun _ => by rw [← chars_nginxPlusLatestDirectives_eq]; rfl) (by decide +kernel) (by decide +kernel)
theorem covers_Oss124_Oss126 : Covers (· ∉ ([c!"ssl"] : List Str)) [MatchOss124] [MatchOss126] :=
  covers_of_tableLe (t := chars_oss124Directives) (u := chars_oss126Directives) (fun _ => by rw [← chars_oss124Directives_eq]; rfl)
    (fun _ => by rw [← chars_oss126Directives_eq]; rfl) (by decide +kernel) (by decide +kernel)
theorem covers_Oss126_OssLatest : Covers (· ∉ ([] : List Str)) [MatchOss126] [MatchOssLatest] :=
  covers_of_tableLe (t := chars_oss126Directives) (u := chars_ossLatestDirectives) (fun _ => by rw [← chars_oss126Directives_eq]; rfl)
    (fun _ => by rw [← chars_ossLatestDirectives_eq]; rfl) (by decide +kernel) (by decide +kernel)
theorem covers_Oss124_NginxPlusR30 : Covers (· ∉ ([c!"ssl"] : List Str)) [MatchOss124] [MatchNginxPlusR30] :=
  covers_of_tableLe (t := chars_oss124Directives) (u := chars_nginxPlusR30Directives) (fun _ => by rw [← chars_oss124Directives_eq]; rfl)
    (fun _ => by rw [← chars_nginxPlusR30Directives_eq]; rfl) (by decide +kernel) (by decide +kernel)
theorem covers_Oss126_NginxPlusR33 : Covers (· ∉ ([] : List Str)) [MatchOss126] [MatchNginxPlusR33] :=
  covers_of_tableLe (t := chars_oss126Directives) (u := chars_nginxPlusR33Directives) (fun _ => by rw [← chars_oss126Directives_eq]; rfl)
    (fun _ => by rw [← chars_nginxPlusR33Directives_eq]; rfl) (by decide +kernel) (by decide +kernel)
theorem covers_OssLatest_NginxPlusLatest : Covers (· ∉ ([c!"proxy_ssl_alpn"] : List Str)) [MatchOssLatest] [MatchNginxPlusLatest] :=
  covers_of_tableLe (t := chars_ossLatestDirectives) (u := chars_nginxPlusLatestDirectives) (fun _ => by rw [← chars_ossLatestDirectives_eq]; rfl)
    (fun _ => by rw [← chars_nginxPlusLatestDirectives_eq]; rfl) (by decide +kernel) (by decide +kernel)
theorem covers_AppProtectWAFv4_AppProtectWAFv5 : Covers (· ∉ ([] : List Str)) [MatchAppProtectWAFv4] [MatchAppProtectWAFv5] :=
  covers_of_tableLe (t := chars_appProtectWAFv4Directives) (u := chars_appProtectWAFv5Directives) (fun _ => by rw [← chars_appProtectWAFv4Directives_eq]; rfl)
    (fun _ => by rw [← chars_appProtectWAFv5Directives_eq]; rfl) (by decide +kernel) (by decide +kernel)
theorem covers_AppProtectWAFv5_AppProtectWAFv4 : Covers (· ∉ ([] : List Str)) [MatchAppProtectWAFv5] [MatchAppProtectWAFv4] :=
  covers_of_tableLe (t := chars_appProtectWAFv5Directives) (u := chars_appProtectWAFv4Directives) (fun _ => by rw [← chars_appProtectWAFv5Directives_eq]; rfl)
    (fun _ => by rw [← chars_appProtectWAFv4Directives_eq]; rfl) (by decide +kernel) (by decide +kernel)
/-- The names of the second table are not in the first. -/
def apartTables (t u : CharTable) : Bool := u.all fun e => (t.find? fun x => x.1 == e.1).isNone

theorem apartTables_get {t u : CharTable} (h : apartTables t u = true) {n : Str} {ms : List Nat} (hu : u.toDir.get n = some ms) : t.toDir.get n = none := by
  rw [toDir_get] at hu ⊢
  obtain ⟨e, he, rfl⟩ := Option.map_eq_some_iff.mp hu
  have := List.all_eq_true.mp h e (List.mem_of_find?_eq_some he)
  have hn : e.1 = n := by simpa using List.find?_some he
  rw [hn, Option.isNone_iff_eq_none] at this
  rw [this]; rfl

/-- **C63**.  The default table is the same as the tables of the latest NGINX Plus, njs and OpenTelemetry given one by one: no name is in two of them. -/
theorem C63_default (name : Str) :
    (Known [defaultDirectivesMatch] name ↔ Known [MatchNginxPlusLatest, MatchNjsLatest, MatchOtelLatest] name) ∧
    ∀ m, HasMask [defaultDirectivesMatch] name m ↔ HasMask [MatchNginxPlusLatest, MatchNjsLatest, MatchOtelLatest] name m := by
  have a1 : apartTables chars_nginxPlusLatestDirectives chars_njsDirectives = true := by decide +kernel
  have a2 : apartTables chars_nginxPlusLatestDirectives chars_otelDirectives = true := by decide +kernel
  have a3 : apartTables chars_njsDirectives chars_otelDirectives = true := by decide +kernel
  have b1 := fun ms => apartTables_get (n := name) (ms := ms) a1
  have b2 := fun ms => apartTables_get (n := name) (ms := ms) a2
  have b3 := fun ms => apartTables_get (n := name) (ms := ms) a3
  rw [← chars_nginxPlusLatestDirectives_eq, ← chars_njsDirectives_eq] at b1
  rw [← chars_nginxPlusLatestDirectives_eq, ← chars_otelDirectives_eq] at b2
  rw [← chars_njsDirectives_eq, ← chars_otelDirectives_eq] at b3
  have hd : defaultDirectivesMatch name = (MatchOtelLatest name).or ((MatchNjsLatest name).or (MatchNginxPlusLatest name)) := by
    unfold defaultDirectivesMatch unionBitmaskMaps MatchOtelLatest MatchNjsLatest MatchNginxPlusLatest
    simp only [List.foldl_cons, List.foldl_nil]
    cases DirTable.get nginxPlusLatestDirectives name <;> cases DirTable.get njsDirectives name <;>
      cases DirTable.get otelDirectives name <;> rfl
  have c1 : ∀ ms, MatchNjsLatest name = some ms → MatchNginxPlusLatest name = none := b1
  have c2 : ∀ ms, MatchOtelLatest name = some ms → MatchNginxPlusLatest name = none := b2
  have c3 : ∀ ms, MatchOtelLatest name = some ms → MatchNjsLatest name = none := b3
  clear b1 b2 b3
  unfold Known HasMask
  simp only [List.mem_cons, List.not_mem_nil, or_false, exists_eq_left, exists_eq_or_imp, hd]
  cases h1 : MatchNginxPlusLatest name <;> cases h2 : MatchNjsLatest name <;> cases h3 : MatchOtelLatest name <;>
    simp_all

/-- The tables of NGINX Plus from the oldest to the latest, and the default table. -/
def plusVersions : List MatchFunc :=
  [MatchNginxPlusR30, MatchNginxPlusR31, MatchNginxPlusR33, MatchNginxPlusR34, MatchNginxPlusR35, MatchNginxPlusR36, MatchNginxPlusR37,
    MatchNginxPlusLatest, defaultDirectivesMatch]

theorem covers_default : Covers (fun _ => True) [MatchNginxPlusLatest] [defaultDirectivesMatch] := by
  have hk : ∀ name, Known [MatchNginxPlusLatest] name → Known [defaultDirectivesMatch] name := by
    rintro n ⟨f, hf, hs⟩
    exact (C63_default n).1.mpr ⟨f, by simp [List.mem_singleton.mp hf], hs⟩
  have hm : ∀ name m, HasMask [MatchNginxPlusLatest] name m → HasMask [defaultDirectivesMatch] name m := by
    rintro n m ⟨f, hf, hs⟩
    exact ((C63_default n).2 m).mpr ⟨f, by simp [List.mem_singleton.mp hf], hs⟩
  exact ⟨fun n _ => hk n, fun n m b _ h _ t => ⟨m, hm n m h, t, fun _ _ h => h⟩, fun n m _ h => ⟨m, hm n m h, fun _ _ h => h⟩⟩

theorem plus_next (i : Nat) (f g : MatchFunc) (hf : plusVersions[i]? = some f) (hg : plusVersions[i + 1]? = some g) :
    Covers (fun _ => True) [f] [g] := by
  have hi : i < 8 := by
    have := (List.getElem?_eq_some_iff.mp hg).1
    simp only [plusVersions, List.length_cons, List.length_nil] at this
    omega
  have key : ∀ (x y : MatchFunc), plusVersions[i]? = some x → plusVersions[i + 1]? = some y → Covers (fun _ => True) [x] [y] → Covers (fun _ => True) [f] [g] := by
    intro x y hx hy h
    rw [hf] at hx; rw [hg] at hy
    obtain rfl := Option.some.inj hx
    obtain rfl := Option.some.inj hy
    exact h
  clear hf hg
  obtain rfl | rfl | rfl | rfl | rfl | rfl | rfl | rfl : i = 0 ∨ i = 1 ∨ i = 2 ∨ i = 3 ∨ i = 4 ∨ i = 5 ∨ i = 6 ∨ i = 7 := by omega
  · exact key MatchNginxPlusR30 MatchNginxPlusR31 rfl rfl (covers_mono covers_NginxPlusR30_NginxPlusR31 (by simp))
  · exact key MatchNginxPlusR31 MatchNginxPlusR33 rfl rfl (covers_mono covers_NginxPlusR31_NginxPlusR33 (by simp))
  · exact key MatchNginxPlusR33 MatchNginxPlusR34 rfl rfl (covers_mono covers_NginxPlusR33_NginxPlusR34 (by simp))
  · exact key MatchNginxPlusR34 MatchNginxPlusR35 rfl rfl (covers_mono covers_NginxPlusR34_NginxPlusR35 (by simp))
  · exact key MatchNginxPlusR35 MatchNginxPlusR36 rfl rfl (covers_mono covers_NginxPlusR35_NginxPlusR36 (by simp))
  · exact key MatchNginxPlusR36 MatchNginxPlusR37 rfl rfl (covers_mono covers_NginxPlusR36_NginxPlusR37 (by simp))
  · exact key MatchNginxPlusR37 MatchNginxPlusLatest rfl rfl (covers_mono covers_NginxPlusR37_NginxPlusLatest (by simp))
  · exact key _ _ rfl rfl covers_default

/-- **C63**.  Each table of NGINX Plus covers all earlier ones. -/
theorem C63_plus (i j : Nat) (hij : i ≤ j) (old new : MatchFunc) (hold : plusVersions[i]? = some old) (hnew : plusVersions[j]? = some new) :
    Covers (fun _ => True) [old] [new] := by
  induction j generalizing new with
  | zero =>
    obtain rfl : i = 0 := by omega
    rw [hold] at hnew; cases hnew
    exact covers_refl _ _
  | succ j ih =>
    by_cases h : i = j + 1
    · subst h
      rw [hold] at hnew; cases hnew
      exact covers_refl _ _
    · obtain ⟨mid, hmid⟩ : ∃ mid, plusVersions[j]? = some mid := by
        have := (List.getElem?_eq_some_iff.mp hnew).1
        exact ⟨plusVersions[j], List.getElem?_eq_getElem (by omega)⟩
      exact covers_trans (ih (by omega) mid hmid) (plus_next j mid new hmid hnew)

/-- **C63**.  Open source nginx: 1.26 is covered by the latest version and by NGINX Plus from R33 on; 1.24 by 1.26 and by NGINX Plus R30 for everything but
`ssl` (which nginx 1.25.1 dropped); the latest version by the latest NGINX Plus for everything but `proxy_ssl_alpn`.  The App Protect tables cover each other. -/
theorem C63_oss :
    Covers (fun _ => True) [MatchOss126] [MatchOssLatest] ∧
    (∀ (j : Nat) (new : MatchFunc), 2 ≤ j → plusVersions[j]? = some new → Covers (fun _ => True) [MatchOss126] [new]) ∧
    Covers (· ≠ c!"ssl") [MatchOss124] [MatchOss126] ∧ Covers (· ≠ c!"ssl") [MatchOss124] [MatchNginxPlusR30] ∧
    Covers (· ≠ c!"proxy_ssl_alpn") [MatchOssLatest] [MatchNginxPlusLatest] ∧
    Covers (fun _ => True) [MatchAppProtectWAFv4] [MatchAppProtectWAFv5] ∧ Covers (fun _ => True) [MatchAppProtectWAFv5] [MatchAppProtectWAFv4] :=
  ⟨covers_mono covers_Oss126_OssLatest (by simp),
    fun j new hj hn => covers_trans (covers_mono covers_Oss126_NginxPlusR33 (by simp)) (C63_plus 2 j hj _ new rfl hn),
    covers_mono covers_Oss124_Oss126 (by simp), covers_mono covers_Oss124_NginxPlusR30 (by simp),
    covers_mono covers_OssLatest_NginxPlusLatest (by simp),
    covers_mono covers_AppProtectWAFv4_AppProtectWAFv5 (by simp), covers_mono covers_AppProtectWAFv5_AppProtectWAFv4 (by simp)⟩

theorem get_chars {f : MatchFunc} {d : DirTable} {t : CharTable} (hf : ∀ n, f n = d.get n) (h : d = t.toDir) (n : Str) :
    f n = (t.find? (fun e => e.1 == n)).map (·.2) := by
  rw [hf, h, toDir_get]

/-- **C63**.  The exceptions are real: `ssl` is known to 1.24 but not to 1.26 or R30, `proxy_ssl_alpn` to the latest nginx but not to the latest NGINX Plus. -/
theorem C63_false :
    ¬ Covers (fun _ => True) [MatchOss124] [MatchOss126] ∧ ¬ Covers (fun _ => True) [MatchOss124] [MatchNginxPlusR30] ∧
    ¬ Covers (fun _ => True) [MatchOssLatest] [MatchNginxPlusLatest] := by
  have no : ∀ {f g : MatchFunc} (n : Str), (f n).isSome = true → (g n).isSome = false → ¬ Covers (fun _ => True) [f] [g] := by
    intro f g n hf hg h
    obtain ⟨g', hg', hs⟩ := h.known n trivial ⟨f, by simp, hf⟩
    obtain rfl := List.mem_singleton.mp hg'
    rw [hg] at hs; cases hs
  refine ⟨no c!"ssl" ?_ ?_, no c!"ssl" ?_ ?_, no c!"proxy_ssl_alpn" ?_ ?_⟩
  · rw [get_chars (f := MatchOss124) (fun _ => rfl) chars_oss124Directives_eq]; decide +kernel
  · rw [get_chars (f := MatchOss126) (fun _ => rfl) chars_oss126Directives_eq]; decide +kernel
  · rw [get_chars (f := MatchOss124) (fun _ => rfl) chars_oss124Directives_eq]; decide +kernel
  · rw [get_chars (f := MatchNginxPlusR30) (fun _ => rfl) chars_nginxPlusR30Directives_eq]; decide +kernel
  · rw [get_chars (f := MatchOssLatest) (fun _ => rfl) chars_ossLatestDirectives_eq]; decide +kernel
  · rw [get_chars (f := MatchNginxPlusLatest) (fun _ => rfl) chars_nginxPlusLatestDirectives_eq]; decide +kernel

/-! ## Examples -/

/-- A later version of `exSource`: `user` takes one or more arguments, and there is a new directive. -/
def exSource2 : MatchFunc := fun name =>
  if name = c!"user" then some [ngxMainConf ||| ngxConf1More]
  else if name = c!"pid" then some [ngxMainConf ||| ngxConfTake1]
  else exSource name

/-- The later version gives the same payload; a configuration for it is rejected by the earlier one. -/
example :
    Parse (exEnv [(c!"/e/a", c!"user x; http { server { } }")]) 3 c!"/e/a" { exOpts with errorOnUnknownDirectives := true } =
      .ok (okPayload [(c!"/e/a", [dir c!"user" 1 [c!"x"], blk c!"http" 1 [] [blk c!"server" 1 [] []]])]) ∧
    Parse (exEnv [(c!"/e/a", c!"user x; http { server { } }")]) 3 c!"/e/a"
        { exOpts with errorOnUnknownDirectives := true, directiveSources := [exSource2] } =
      .ok (okPayload [(c!"/e/a", [dir c!"user" 1 [c!"x"], blk c!"http" 1 [] [blk c!"server" 1 [] []]])]) ∧
    Parse (exEnv [(c!"/e/a", c!"pid x;")]) 3 c!"/e/a" { exOpts with errorOnUnknownDirectives := true } =
      .ok (badPayload c!"/e/a" 1 (serr c!"unknown directive \"pid\"" c!"/e/a" 1 c!"pid x" c!"main") []) := by
  decide +kernel

/-- **C63**.  The condition of `C63_same_payload` on unknown names is needed: a directive that the old table does not know is not checked, and one that the
new table knows is. -/
theorem C63_false_lax : ∃ (env : Env) (o : ParseOptions) (new : List MatchFunc) (p q : Payload),
    Covers (fun _ => True) (sources o) (sources { o with directiveSources := new }) ∧
    Parse env 3 c!"/e/a" o = .ok p ∧ p.errors = [] ∧ Parse env 3 c!"/e/a" { o with directiveSources := new } = .ok q ∧ q.errors ≠ [] := by
  refine ⟨exEnv [(c!"/e/a", c!"pid x y;")], exOpts, [exSource, exSource2], okPayload [(c!"/e/a", [dir c!"pid" 1 [c!"x", c!"y"]])],
    badPayload c!"/e/a" 1 (serr c!"invalid number of arguments in \"pid\" directive" c!"/e/a" 1 c!"pid x y" c!"main") [], ?_, by decide +kernel, rfl,
    by decide +kernel, by decide⟩
  show Covers (fun _ => True) [exSource] [exSource, exSource2]
  have hm : ∀ n m, HasMask [exSource] n m → HasMask [exSource, exSource2] n m := by
    rintro n m ⟨f, hf, h⟩
    exact ⟨f, by simp [List.mem_singleton.mp hf], h⟩
  refine ⟨?_, fun n m b _ h _ t => ⟨m, hm n m h, t, fun _ _ h => h⟩, fun n m _ h => ⟨m, hm n m h, fun _ _ h => h⟩⟩
  rintro n - ⟨f, hf, h⟩
  exact ⟨f, by simp [List.mem_singleton.mp hf], h⟩

/-- A mask is not covered by one with fewer contexts, other arguments, or another ending. -/
example : entryLe [ngxMainConf ||| ngxConfTake1] [ngxMainConf ||| ngxConf1More] = true ∧
    entryLe [ngxMainConf ||| ngxEventConf ||| ngxConfTake1] [ngxMainConf ||| ngxConfTake1] = false ∧
    entryLe [ngxMainConf ||| ngxConf1More] [ngxMainConf ||| ngxConfTake1] = false ∧
    entryLe [ngxMainConf ||| ngxConfBlock ||| ngxConfNoArgs] [ngxMainConf ||| ngxConfNoArgs] = false := by decide

/-- `C63_plus` for R30 and the default table. -/
example : Covers (fun _ => True) [MatchNginxPlusR30] [defaultDirectivesMatch] := C63_plus 0 8 (by decide) _ _ rfl rfl

end Verif
