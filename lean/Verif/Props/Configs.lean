import Verif.Model.Tables.Configs
import Verif.Props.Gen
import Verif.Proofs.CharTable
/-!
# C58: the committed tables are outputs of the generator under the committed configurations
-/
namespace Verif
open Spec

/-- The value of a mask in the generated Go file: the `|` of its constants; `none` if one is not declared. -/
def maskValue (mask : List Str) : Option Nat := (mask.mapM fun g => goConsts.lookup g).map bits

/-! ## C texts for masks -/

/-- The bits that have a name in nginx's headers. -/
def namedBits : List Nat :=
  [0, 1, 2, 3, 4, 5, 6, 8, 10, 11, 12, 13, 16, 18, 19, 20, 21, 22, 23, 24, 25, 26, 27, 28, 29, 30, 31]

/-- The C name of one bit. -/
def cName (i : Nat) : Str := ((cMasks.find? (fun e => e.2 == [i])).map (·.1)).getD []
/-- The Go name of one bit. -/
def gName (i : Nat) : Str := (ngxVarNameToGo.lookup (cName i)).getD []

theorem names_ok : ∀ i ∈ namedBits, '|' ∉ cName i ∧ trimSpace (cName i) = cName i ∧ ngxVarNameToGo.lookup (cName i) = some (gName i) ∧
    goConsts.lookup (gName i) = some (2 ^ i) := by decide +kernel

/-- The bits of a mask. -/
def cBits (m : Nat) : List Nat := (List.range 33).filter (m.testBit ·)
/-- A C text for a mask. -/
def cText (m : Nat) : Str := sepBy '|' ((cBits m).map cName)

theorem bits_testBit (l : List Nat) (j : Nat) : (bits l).testBit j = l.any (·.testBit j) := by
  have : ∀ acc : Nat, (l.foldl (· ||| ·) acc).testBit j = (acc.testBit j || l.any (·.testBit j)) := by
    induction l with
    | nil => simp
    | cons x l ih => intro acc; simp [ih, Nat.testBit_or, Bool.or_assoc]
  simpa [bits] using this 0

theorem bits_cBits {m : Nat} (h : m < 2 ^ 33) : bits ((cBits m).map (2 ^ ·)) = m := by
  apply Nat.eq_of_testBit_eq
  intro j
  rw [bits_testBit, Bool.eq_iff_iff, List.any_eq_true]
  constructor
  · rintro ⟨x, hx, hj⟩
    obtain ⟨i, hi, rfl⟩ := List.mem_map.mp hx
    rw [Nat.testBit_two_pow, decide_eq_true_eq] at hj
    subst hj
    exact (List.mem_filter.mp hi).2
  · intro hj
    have : j < 33 := by
      by_contra hn
      have := Nat.testBit_lt_two_pow (Nat.lt_of_lt_of_le h (Nat.pow_le_pow_right (by omega) (by omega : 33 ≤ j)))
      rw [hj] at this; cases this
    exact ⟨2 ^ j, List.mem_map.mpr ⟨j, List.mem_filter.mpr ⟨List.mem_range.mpr this, hj⟩, rfl⟩, by simp [Nat.testBit_two_pow]⟩

/-- The masks that C sources can give. -/
def fromC (m : Nat) : Bool := decide (m < 2 ^ 33) && m != 0 && (cBits m).all (namedBits.contains ·)

theorem mapM_lookup {α : Type} (f : α → Option Nat) (g : Nat → α) (l : List Nat) (h : ∀ i ∈ l, f (g i) = some (2 ^ i)) :
    (l.map g).mapM f = some (l.map (2 ^ ·)) := by
  induction l with
  | nil => rfl
  | cons i l ih => simp [h i (by simp), ih (fun j hj => h j (by simp [hj]))]

theorem cText_ok {m : Nat} (h : fromC m = true) : ∃ mask, translateMask (cText m) = .ok mask ∧ maskValue mask = some m := by
  simp only [fromC, Bool.and_eq_true, decide_eq_true_eq, List.all_eq_true, List.contains_iff_mem] at h
  obtain ⟨⟨h1, h2⟩, h3⟩ := h
  refine ⟨(cBits m).map gName, ?_, ?_⟩
  · rw [translateMask_ok, cText, splitOn1_sepBy]
    · clear h1 h2
      revert h3
      generalize cBits m = l
      intro h3
      induction l with
      | nil => exact .nil
      | cons i l ih =>
        obtain ⟨-, ht, hl, -⟩ := names_ok i (h3 i (by simp))
        exact .cons (by rw [ht, hl]) (ih fun j hj => h3 j (by simp [hj]))
    · intro hn
      have := bits_cBits h1
      rw [List.map_eq_nil_iff.mp hn] at this
      simp [bits] at this
      simp [← this] at h2
    · intro p hp
      obtain ⟨i, hi, rfl⟩ := List.mem_map.mp hp
      exact (names_ok i (h3 i hi)).1
  · rw [maskValue, mapM_lookup _ _ _ (fun i hi => (names_ok i (h3 i hi)).2.2.2), Option.map_some, bits_cBits h1]

theorem noArgs_ok : translateMask c!"NGX_CONF_NOARGS" = .ok [c!"ngxConfNoArgs"] := rfl

/-! ## Tables -/

/-- The conditions on one entry: not filtered; with an override the override's masks; else masks that C sources can give. -/
def entryFine (filter : List Str) (ov : MaskMap) (e : Str × List Nat) : Bool :=
  !filter.contains e.1 && trimSpace e.1 == e.1 && !e.2.isEmpty &&
  match ov.lookup e.1 with
  | some masks => masks.map maskValue == e.2.map some
  | none => e.2.all fromC

/-- Definitions for an entry. -/
def entryDefs (ov : MaskMap) (e : Str × List Nat) : List (Str × Str) :=
  e.2.map fun m => (e.1, if (ov.lookup e.1).isSome then c!"NGX_CONF_NOARGS" else cText m)

theorem masksFromDefs_total (defs : List (Str × Str)) (acc : MaskMap) (h : ∀ d ∈ defs, ∃ mask, translateMask d.2 = .ok mask) :
    ∃ m, masksFromDefs defs acc = .ok m := by
  induction defs generalizing acc with
  | nil => exact ⟨acc, rfl⟩
  | cons d defs ih =>
    obtain ⟨mask, hm⟩ := h d (by simp)
    unfold masksFromDefs
    rw [hm]
    exact ih _ fun x hx => h x (by simp [hx])

theorem forall₂_filter {defs : List (Str × Str)} {masks : List Mask} {R : Str × Str → Mask → Prop} (h : List.Forall₂ R defs masks) (p : Str × Str → Bool) :
    List.Forall₂ R (defs.filter p) (((defs.zip masks).filter (fun e => p e.1)).map (·.2)) := by
  induction h with
  | nil => exact .nil
  | @cons d mask defs masks hd _ ih =>
    rw [List.zip_cons_cons, List.filter_cons, List.filter_cons]
    by_cases hn : p d = true
    · simp only [hn, if_true, List.map_cons]
      exact .cons hd ih
    · simp only [hn]
      exact ih

/-- The keys are strictly increasing. -/
def increasing : List Str → Bool
  | a :: b :: l => decide (a < b) && increasing (b :: l)
  | _ => true

theorem increasing_lt {a : Str} {l : List Str} (h : increasing (a :: l) = true) : ∀ b ∈ l, a < b := by
  induction l generalizing a with
  | nil => simp
  | cons b l ih =>
    simp only [increasing, Bool.and_eq_true, decide_eq_true_eq] at h
    intro c hc
    rcases List.mem_cons.mp hc with rfl | hc
    · exact h.1
    · exact List.lt_trans h.1 (ih h.2 c hc)

theorem increasing_tail {a : Str} {l : List Str} (h : increasing (a :: l) = true) : increasing l = true := by
  cases l with
  | nil => rfl
  | cons b l => simp only [increasing, Bool.and_eq_true] at h; exact h.2

theorem defs_of_name {ov : MaskMap} {t : CharTable} (hi : increasing (t.map (·.1)) = true)
    (ht : ∀ e ∈ t, trimSpace e.1 = e.1) (name : Str) :
    (t.flatMap (entryDefs ov)).filter (fun d => trimSpace d.1 == name) =
    match t.find? (fun e => e.1 == name) with
    | some e => entryDefs ov e
    | none => [] := by
  induction t with
  | nil => rfl
  | cons e t ih =>
    rw [List.flatMap_cons, List.filter_append, ih (increasing_tail hi) (fun x hx => ht x (by simp [hx])), List.find?_cons]
    by_cases hn : e.1 = name
    · simp only [hn, beq_self_eq_true]
      have hnone : t.find? (fun e => e.1 == name) = none := by
        rw [List.find?_eq_none]
        intro x hx hxn
        have hlt : e.1 < x.1 := increasing_lt hi x.1 (List.mem_map.mpr ⟨x, hx, rfl⟩)
        rw [show x.1 = name by simpa using hxn, hn] at hlt
        exact List.lt_irrefl _ hlt
      rw [hnone]
      simp only [List.append_nil]
      rw [List.filter_eq_self]
      intro d hd
      obtain ⟨m, -, rfl⟩ := List.mem_map.mp hd
      have hte := ht e (by simp)
      rw [hn] at hte
      simp only [hn, hte, beq_self_eq_true]
    · simp only [beq_false_of_ne hn]
      rw [show (entryDefs ov e).filter (fun d => trimSpace d.1 == name) = [] from ?_, List.nil_append]
      rw [List.filter_eq_nil_iff]
      intro d hd
      obtain ⟨m, -, rfl⟩ := List.mem_map.mp hd
      simp only [ht e (by simp)]
      simpa using hn

/-- The conditions on a configuration and its table. -/
def TableConfig.fine (c : TableConfig) (t : CharTable) : Bool :=
  !t.isEmpty && increasing (t.map (·.1)) && t.all (entryFine c.filter c.override)

theorem toDir_get (t : CharTable) (name : Str) : t.toDir.get name = (t.find? (fun e => e.1 == name)).map (·.2) := by
  unfold CharTable.toDir DirTable.get
  induction t with
  | nil => rfl
  | cons e t ih =>
    rw [List.map_cons, List.find?_cons, List.find?_cons]
    simp only [String.toList_ofList]
    split
    · rfl
    · exact ih

theorem fine_generated (c : TableConfig) (t : CharTable) (hd : c.table = t.toDir) (h : c.fine t = true) :
    ∃ defs m out, masksFromDefs defs [] = .ok m ∧ genMap [m] c.filter (some c.override) = some out ∧
      ∀ name, (out.lookup name).map (·.map maskValue) = (c.table.get name).map (·.map some) := by
  simp only [TableConfig.fine, Bool.and_eq_true, List.all_eq_true] at h
  obtain ⟨⟨h0, hi⟩, he⟩ := h
  have he' : ∀ e ∈ t, e.1 ∉ c.filter ∧ trimSpace e.1 = e.1 ∧ e.2 ≠ [] ∧
      match c.override.lookup e.1 with
      | some masks => masks.map maskValue = e.2.map some
      | none => ∀ m ∈ e.2, fromC m = true := by
    intro e hm
    have := he e hm
    simp only [entryFine, Bool.and_eq_true, beq_iff_eq, Bool.not_eq_true', List.isEmpty_eq_false_iff] at this
    obtain ⟨⟨⟨h1, h2⟩, h3⟩, h4⟩ := this
    refine ⟨by simpa using h1, h2, h3, ?_⟩
    split <;> simp_all
  have htot : ∀ d ∈ t.flatMap (entryDefs c.override), ∃ mask, translateMask d.2 = .ok mask := by
    intro d hd'
    obtain ⟨e, hm, hd'⟩ := List.mem_flatMap.mp hd'
    obtain ⟨m, hm', rfl⟩ := List.mem_map.mp hd'
    obtain ⟨-, -, -, h4⟩ := he' e hm
    cases ho : c.override.lookup e.1 with
    | some masks => exact ⟨_, noArgs_ok⟩
    | none =>
      rw [ho] at h4
      obtain ⟨mask, hmask, -⟩ := cText_ok (h4 m hm')
      exact ⟨mask, hmask⟩
  obtain ⟨m, hm⟩ := masksFromDefs_total _ [] htot
  obtain ⟨h1, masks, h2, h3, h4⟩ := masksFromDefs_spec _ [] m (by simp) hm
  have hfound : ∀ name, Found [m] name ↔ name ∈ m.map (·.1) := by
    intro name
    unfold Found
    simp only [List.mem_singleton, exists_eq_left, List.mem_map, Prod.exists, exists_eq_right]
    constructor
    · rintro ⟨ms, h⟩; exact ⟨name, ms, h, rfl⟩
    · rintro ⟨a, b, h, rfl⟩; exact ⟨b, h⟩
  have hkey : ∀ name, name ∈ m.map (·.1) ↔ ∃ e, t.find? (fun e => e.1 == name) = some e := by
    intro name
    rw [h3]
    simp only [List.map_nil, List.not_mem_nil, false_or]
    rw [← Option.isSome_iff_exists, List.find?_isSome]
    constructor
    · rintro ⟨d, hd', rfl⟩
      obtain ⟨e, hm, hd'⟩ := List.mem_flatMap.mp hd'
      obtain ⟨x, -, rfl⟩ := List.mem_map.mp hd'
      exact ⟨e, hm, by simpa using (he' e hm).2.1.symm⟩
    · rintro ⟨e, hm, hn⟩
      have hn : e.1 = name := by simpa using hn
      obtain ⟨-, ht, hne, -⟩ := he' e hm
      obtain ⟨x, hx⟩ := List.exists_mem_of_ne_nil _ hne
      exact ⟨_, List.mem_flatMap.mpr ⟨e, hm, List.mem_map.mpr ⟨x, hx, rfl⟩⟩, ht.trans hn⟩
  obtain ⟨out, hout⟩ : ∃ out, genMap [m] c.filter (some c.override) = some out := by
    rw [← Option.isSome_iff_exists, Option.isSome_iff_ne_none, ne_eq, C53_error_iff, not_not]
    obtain ⟨e, hm⟩ := List.exists_mem_of_ne_nil t (by simpa using h0)
    refine ⟨e.1, (hfound _).mpr ((hkey _).mpr ?_)⟩
    rw [← Option.isSome_iff_exists, List.find?_isSome]
    exact ⟨e, hm, by simp⟩
  refine ⟨_, m, out, hm, hout, fun name => ?_⟩
  rw [(C53_table _ _ _ _ hout).2 name, hd, toDir_get]
  cases hf : t.find? (fun e => e.1 == name) with
  | none =>
    rw [if_neg]
    · rfl
    · rintro ⟨hn, -⟩
      obtain ⟨e, he⟩ := (hkey name).mp ((hfound name).mp hn)
      rw [hf] at he; cases he
  | some e =>
    have hmem := List.mem_of_find?_eq_some hf
    have hname : e.1 = name := by simpa using List.find?_some hf
    obtain ⟨hnf, ht, hne, hv⟩ := he' e hmem
    rw [hname] at hnf hv
    have hk := (hkey name).mpr ⟨e, hf⟩
    rw [if_pos ⟨(hfound name).mpr hk, hnf⟩]
    simp only [Option.map_some, Option.getD_some, Option.some.injEq]
    cases ho : c.override.lookup name with
    | some masks => rw [ho] at hv; simpa using hv
    | none =>
      rw [ho] at hv
      simp only [Option.getD_none]
      have hall : allMasks [m] name = (m.lookup name).getD [] := by
        unfold allMasks
        simp only [List.flatMap_cons, List.flatMap_nil, List.append_nil]
        clear hm h3 h4 hfound hkey hout hk
        induction m with
        | nil => rfl
        | cons x m ih =>
          simp only [List.map_cons, List.nodup_cons] at h1
          rw [List.filter_cons, List.lookup_cons]
          by_cases hx : x.1 = name
          · have : m.filter (fun e => e.1 == name) = [] := by
              rw [List.filter_eq_nil_iff]
              intro y hy hyn
              exact h1.1 (List.mem_map.mpr ⟨y, hy, by rw [hx]; simpa using hyn⟩)
            simp [hx, this]
          · have hx' : ¬ name = x.1 := fun h => hx h.symm
            simp only [beq_false_of_ne hx, beq_false_of_ne hx']
            exact ih h1.2
      rw [hall, h4 name]
      simp only [List.lookup_nil, Option.getD_none, List.nil_append]
      have h5 := forall₂_filter h2 (fun d => trimSpace d.1 == name)
      rw [defs_of_name hi (fun e he => (he' e he).2.1) name, hf] at h5
      simp only [entryDefs, hname, ho, Option.isSome_none] at h5
      revert h5 hv
      generalize ((t.flatMap (entryDefs c.override)).zip masks).filter (fun e => trimSpace e.1.1 == name) = z
      generalize z.map (·.2) = ms
      generalize e.2 = l
      clear hf hmem hname ht hne hk
      intro hv h5
      induction l generalizing ms with
      | nil => cases h5; rfl
      | cons x l ih =>
        cases h5 with
        | cons hx h5 =>
          obtain ⟨mask, hmask, hval⟩ := cText_ok (hv x (by simp))
          simp only [Bool.false_eq_true, if_false] at hx
          rw [hx] at hmask
          cases hmask
          rw [List.map_cons, List.map_cons, hval, ih _ (fun y hy => hv y (by simp [hy])) h5]

def chars_geoip2Directives : CharTable := chars% geoip2Directives
theorem chars_geoip2Directives_eq : geoip2Directives = chars_geoip2Directives.toDir := by kernel_rfl
theorem fine_geoip2Directives : config_geoip2.fine chars_geoip2Directives = true := by decide +kernel

def chars_headersMoreDirectives : CharTable := chars% headersMoreDirectives
theorem chars_headersMoreDirectives_eq : headersMoreDirectives = chars_headersMoreDirectives.toDir := by kernel_rfl
theorem fine_headersMoreDirectives : config_headersmore.fine chars_headersMoreDirectives = true := by decide +kernel

def chars_luaDirectives : CharTable := chars% luaDirectives
theorem chars_luaDirectives_eq : luaDirectives = chars_luaDirectives.toDir := by kernel_rfl
theorem fine_luaDirectives : config_lua.fine chars_luaDirectives = true := by decide +kernel

def chars_appProtectWAFv4Directives : CharTable := chars% appProtectWAFv4Directives
theorem chars_appProtectWAFv4Directives_eq : appProtectWAFv4Directives = chars_appProtectWAFv4Directives.toDir := by kernel_rfl
theorem fine_appProtectWAFv4Directives : config_nap_v4.fine chars_appProtectWAFv4Directives = true := by decide +kernel

def chars_appProtectWAFv5Directives : CharTable := chars% appProtectWAFv5Directives
theorem chars_appProtectWAFv5Directives_eq : appProtectWAFv5Directives = chars_appProtectWAFv5Directives.toDir := by kernel_rfl
theorem fine_appProtectWAFv5Directives : config_nap_v5.fine chars_appProtectWAFv5Directives = true := by decide +kernel

def chars_njsDirectives : CharTable := chars% njsDirectives
theorem chars_njsDirectives_eq : njsDirectives = chars_njsDirectives.toDir := by kernel_rfl
theorem fine_njsDirectives : config_njs.fine chars_njsDirectives = true := by decide +kernel

def chars_nginxPlusR33Directives : CharTable := chars% nginxPlusR33Directives
theorem chars_nginxPlusR33Directives_eq : nginxPlusR33Directives = chars_nginxPlusR33Directives.toDir := by kernel_rfl
theorem fine_nginxPlusR33Directives : config_nplus_R33.fine chars_nginxPlusR33Directives = true := by decide +kernel

def chars_nginxPlusR34Directives : CharTable := chars% nginxPlusR34Directives
theorem chars_nginxPlusR34Directives_eq : nginxPlusR34Directives = chars_nginxPlusR34Directives.toDir := by kernel_rfl
theorem fine_nginxPlusR34Directives : config_nplus_R34.fine chars_nginxPlusR34Directives = true := by decide +kernel

def chars_nginxPlusR35Directives : CharTable := chars% nginxPlusR35Directives
theorem chars_nginxPlusR35Directives_eq : nginxPlusR35Directives = chars_nginxPlusR35Directives.toDir := by kernel_rfl
theorem fine_nginxPlusR35Directives : config_nplus_R35.fine chars_nginxPlusR35Directives = true := by decide +kernel

def chars_nginxPlusR36Directives : CharTable := chars% nginxPlusR36Directives
theorem chars_nginxPlusR36Directives_eq : nginxPlusR36Directives = chars_nginxPlusR36Directives.toDir := by kernel_rfl
theorem fine_nginxPlusR36Directives : config_nplus_R36.fine chars_nginxPlusR36Directives = true := by decide +kernel

def chars_nginxPlusR37Directives : CharTable := chars% nginxPlusR37Directives
theorem chars_nginxPlusR37Directives_eq : nginxPlusR37Directives = chars_nginxPlusR37Directives.toDir := by kernel_rfl
theorem fine_nginxPlusR37Directives : config_nplus_R37.fine chars_nginxPlusR37Directives = true := by decide +kernel

def chars_nginxPlusLatestDirectives : CharTable := chars% nginxPlusLatestDirectives
theorem chars_nginxPlusLatestDirectives_eq : nginxPlusLatestDirectives = chars_nginxPlusLatestDirectives.toDir := by kernel_rfl
theorem fine_nginxPlusLatestDirectives : config_nplus_latest.fine chars_nginxPlusLatestDirectives = true := by decide +kernel

def chars_oss124Directives : CharTable := chars% oss124Directives
theorem chars_oss124Directives_eq : oss124Directives = chars_oss124Directives.toDir := by kernel_rfl
theorem fine_oss124Directives : config_oss_124.fine chars_oss124Directives = true := by decide +kernel

def chars_oss126Directives : CharTable := chars% oss126Directives
theorem chars_oss126Directives_eq : oss126Directives = chars_oss126Directives.toDir := by kernel_rfl
theorem fine_oss126Directives : config_oss_126.fine chars_oss126Directives = true := by decide +kernel

def chars_ossLatestDirectives : CharTable := chars% ossLatestDirectives
theorem chars_ossLatestDirectives_eq : ossLatestDirectives = chars_ossLatestDirectives.toDir := by kernel_rfl
theorem fine_ossLatestDirectives : config_oss_latest.fine chars_ossLatestDirectives = true := by decide +kernel

def chars_otelDirectives : CharTable := chars% otelDirectives
theorem chars_otelDirectives_eq : otelDirectives = chars_otelDirectives.toDir := by kernel_rfl
theorem fine_otelDirectives : config_otel.fine chars_otelDirectives = true := by decide +kernel

/-- **C58**.  Each committed table is what the generator makes, under the committed configuration, of some C definitions: it has no filtered name, the
masks of overridden names are the override's, and all others can be written with nginx's names. -/
theorem C58_generated (c : TableConfig) (h : c ∈ tableConfigs) :
    ∃ defs m out, masksFromDefs defs [] = .ok m ∧ genMap [m] c.filter (some c.override) = some out ∧
      ∀ name, (out.lookup name).map (·.map maskValue) = (c.table.get name).map (·.map some) := by
  simp only [tableConfigs, List.mem_cons, List.not_mem_nil, or_false] at h
  rcases h with rfl | rfl | rfl | rfl | rfl | rfl | rfl | rfl | rfl | rfl | rfl | rfl | rfl | rfl | rfl | rfl
  · exact fine_generated _ _ chars_geoip2Directives_eq fine_geoip2Directives
  · exact fine_generated _ _ chars_headersMoreDirectives_eq fine_headersMoreDirectives
  · exact fine_generated _ _ chars_luaDirectives_eq fine_luaDirectives
  · exact fine_generated _ _ chars_appProtectWAFv4Directives_eq fine_appProtectWAFv4Directives
  · exact fine_generated _ _ chars_appProtectWAFv5Directives_eq fine_appProtectWAFv5Directives
  · exact fine_generated _ _ chars_njsDirectives_eq fine_njsDirectives
  · exact fine_generated _ _ chars_nginxPlusR33Directives_eq fine_nginxPlusR33Directives
  · exact fine_generated _ _ chars_nginxPlusR34Directives_eq fine_nginxPlusR34Directives
  · exact fine_generated _ _ chars_nginxPlusR35Directives_eq fine_nginxPlusR35Directives
  · exact fine_generated _ _ chars_nginxPlusR36Directives_eq fine_nginxPlusR36Directives
  · exact fine_generated _ _ chars_nginxPlusR37Directives_eq fine_nginxPlusR37Directives
  · exact fine_generated _ _ chars_nginxPlusLatestDirectives_eq fine_nginxPlusLatestDirectives
  · exact fine_generated _ _ chars_oss124Directives_eq fine_oss124Directives
  · exact fine_generated _ _ chars_oss126Directives_eq fine_oss126Directives
  · exact fine_generated _ _ chars_ossLatestDirectives_eq fine_ossLatestDirectives
  · exact fine_generated _ _ chars_otelDirectives_eq fine_otelDirectives

/-- **C58**.  Every table with a generated file has a configuration; only the tables for R30 and R31 are kept by hand. -/
theorem C58_all (t : String × DirTable) (h : t ∈ allTables) (h1 : t.1 ≠ "MatchNginxPlusR30") (h2 : t.1 ≠ "MatchNginxPlusR31") :
    ∃ c ∈ tableConfigs, c.table = t.2 := by
  simp only [allTables, List.mem_cons, List.not_mem_nil, or_false] at h
  rcases h with rfl | rfl | rfl | rfl | rfl | rfl | rfl | rfl | rfl | rfl | rfl | rfl | rfl | rfl | rfl | rfl | rfl | rfl
  · exact ⟨config_nap_v4, by simp [tableConfigs], rfl⟩
  · exact ⟨config_nap_v5, by simp [tableConfigs], rfl⟩
  · exact ⟨config_geoip2, by simp [tableConfigs], rfl⟩
  · exact ⟨config_headersmore, by simp [tableConfigs], rfl⟩
  · exact ⟨config_lua, by simp [tableConfigs], rfl⟩
  · exact ⟨config_njs, by simp [tableConfigs], rfl⟩
  · exact absurd rfl h1
  · exact absurd rfl h2
  · exact ⟨config_nplus_R33, by simp [tableConfigs], rfl⟩
  · exact ⟨config_nplus_R34, by simp [tableConfigs], rfl⟩
  · exact ⟨config_nplus_R35, by simp [tableConfigs], rfl⟩
  · exact ⟨config_nplus_R36, by simp [tableConfigs], rfl⟩
  · exact ⟨config_nplus_R37, by simp [tableConfigs], rfl⟩
  · exact ⟨config_nplus_latest, by simp [tableConfigs], rfl⟩
  · exact ⟨config_oss_124, by simp [tableConfigs], rfl⟩
  · exact ⟨config_oss_126, by simp [tableConfigs], rfl⟩
  · exact ⟨config_oss_latest, by simp [tableConfigs], rfl⟩
  · exact ⟨config_otel, by simp [tableConfigs], rfl⟩

/-- A table with a filtered name is not fine, nor one with another mask than the override's, nor one with `ngxConfExpr` without override. -/
example : ({ path := "", table := [], filter := [c!"a"] } : TableConfig).fine [(c!"a", [ngxConfTake1])] = false ∧
    ({ path := "", table := [], override := [(c!"a", [[c!"ngxConfTake2"]])] } : TableConfig).fine [(c!"a", [ngxConfTake1])] = false ∧
    ({ path := "", table := [] } : TableConfig).fine [(c!"if", [ngxConfExpr])] = false ∧
    ({ path := "", table := [], filter := [c!"b"] } : TableConfig).fine [(c!"a", [ngxConfTake12])] = true := by decide +kernel

end Verif
