import Verif.Proofs.Gen
/-!
# C53, C54, C55: the generator
-/
namespace Verif
open Spec

/-! ## C53 -/

/-- C53.  Generation fails with "can't find any directives" iff no file defines a directive. -/
theorem C53_error_iff (files : List MaskMap) (filter : List Str) (override : Option MaskMap) :
    genMap files filter override = none ↔ ¬ ∃ name, Found files name := by
  obtain ⟨-, h2, -⟩ := getMasks_fold files [] (by simp)
  unfold genMap getMasks
  simp only [Option.map_eq_none_iff, ite_eq_left_iff, beq_iff_eq, List.length_eq_zero_iff]
  constructor
  · intro h
    rintro ⟨n, hn⟩
    have h0 : files.foldl mergeFile [] = [] := by by_contra h'; exact absurd (h h') (by simp)
    have := (h2 n).mpr (Or.inr hn)
    rw [h0] at this; simp at this
  · intro h h'
    exfalso
    cases hm : files.foldl mergeFile [] with
    | nil => exact h' hm
    | cons e m =>
      apply h
      refine ⟨e.1, ?_⟩
      have := (h2 e.1).mp (by rw [hm]; simp)
      simpa using this

/-- C53.  The generated table: a name is present iff some file defines it and it is not filtered; its masks are the override's if
there is one, else all masks of all its definitions in file order.  No name occurs twice. -/
theorem C53_table (files : List MaskMap) (filter : List Str) (override : Option MaskMap) (m : MaskMap)
    (h : genMap files filter override = some m) :
    (m.map (·.1)).Nodup ∧
    ∀ name, m.lookup name =
      open Classical in
      if Found files name ∧ name ∉ filter then
        some (((override.getD []).lookup name).getD (allMasks files name))
      else none := by
  obtain ⟨h1, h2, h3⟩ := getMasks_fold files [] (by simp)
  simp only [List.lookup_nil, Option.getD_none, List.nil_append, List.map_nil, List.not_mem_nil, false_or] at h2 h3
  unfold genMap at h
  obtain ⟨g, hg, rfl⟩ := Option.map_eq_some_iff.mp h
  have hg' : g = files.foldl mergeFile [] := by
    unfold getMasks at hg
    simp only at hg
    split at hg
    · cases hg
    · exact (Option.some.inj hg).symm
  subst hg'
  generalize files.foldl mergeFile [] = g at *
  have hfilter : (if filter.length > 0 then g.filter (fun e => !filter.contains e.1) else g) =
      g.filter (fun e => !filter.contains e.1) := by
    split
    · rfl
    · rename_i hl
      have : filter = [] := List.length_eq_zero_iff.mp (by omega)
      subst this; simp
  have hlook : ∀ name, (g.filter (fun e => !filter.contains e.1)).lookup name =
      open Classical in if Found files name ∧ name ∉ filter then some (allMasks files name) else none := by
    intro name
    rw [lookup_filter g (fun n => !filter.contains n) name]
    by_cases hf : name ∈ filter
    · simp [hf]
    · by_cases hfo : Found files name
      · have hs := (lookup_isSome g name).mpr ((h2 name).mpr hfo)
        have := h3 name
        cases hl : g.lookup name with
        | none => rw [hl] at hs; cases hs
        | some ms => rw [hl] at this; simp at this; simp [hf, hfo, this]
      · have : g.lookup name = none := by
          cases hl : g.lookup name with
          | none => rfl
          | some ms => exact absurd ((h2 name).mp ((lookup_isSome g name).mp (by rw [hl]; rfl))) hfo
        simp [hfo, this]
  simp only [filterOverride, hfilter]
  have hnd : ((g.filter (fun e => !filter.contains e.1)).map (·.1)).Nodup :=
    h1.sublist (List.Sublist.map _ List.filter_sublist)
  cases override with
  | none => exact ⟨hnd, fun name => by rw [hlook]; simp⟩
  | some ov =>
    simp only
    constructor
    · rw [List.map_map]
      convert hnd using 2
      funext e
      simp only [Function.comp, overrideEntry]
      split <;> rfl
    · intro name
      rw [lookup_override, hlook]
      by_cases hf : Found files name ∧ name ∉ filter <;> simp [hf]

/-- C53.  The table does not depend on the order in which Go iterates over the map of a file. -/
theorem C53_iteration_order (files files' : List MaskMap) (filter : List Str) (override : Option MaskMap) (m m' : MaskMap)
    (hp : List.Forall₂ (fun f f' => f.Perm f' ∧ (f.map (·.1)).Nodup) files files')
    (h : genMap files filter override = some m) (h' : genMap files' filter override = some m') (name : Str) :
    m.lookup name = m'.lookup name := by
  rw [(C53_table files filter override m h).2, (C53_table files' filter override m' h').2]
  have hfound : Found files name ↔ Found files' name := by
    unfold Found
    clear h h'
    induction hp with
    | nil => simp
    | cons h _ ih =>
      simp only [List.mem_cons, exists_eq_or_imp, ih]
      simp only [h.1.mem_iff]
  have hall : allMasks files name = allMasks files' name := by
    clear h h' hfound
    unfold allMasks
    induction hp with
    | nil => rfl
    | cons h _ ih =>
      simp only [List.flatMap_cons, ih]
      congr 1
      have hperm := h.1.filter (fun e => e.1 == name)
      have hlen : ∀ f : MaskMap, (f.map (·.1)).Nodup → (f.filter (fun e => e.1 == name)).length ≤ 1 := by
        intro f hf
        induction f with
        | nil => simp
        | cons e f ih =>
          simp only [List.map_cons, List.nodup_cons] at hf
          by_cases he : e.1 = name
          · have : f.filter (fun e => e.1 == name) = [] := by
              rw [List.filter_eq_nil_iff]
              intro e' he' h
              exact hf.1 (List.mem_map.mpr ⟨e', he', by rw [he]; simpa using h⟩)
            rw [List.filter_cons, this]; split <;> simp
          · rw [List.filter_cons, if_neg (by simpa using he)]
            exact ih hf.2
      have := hlen _ h.2
      congr 1
      generalize h1 : List.filter _ _ = a at hperm this
      generalize h2 : List.filter _ _ = b at hperm
      match a, this with
      | [], _ => rw [List.nil_perm.mp hperm]
      | [x], _ => rw [List.singleton_perm.mp hperm]
      | _ :: _ :: _, h => simp at h
  rw [hall]
  by_cases hf : Found files' name <;> simp [hf, hfound]

/-- Two files define `a`, `b` is filtered, `c` overridden. -/
example : genMap [[(c!"a", [[c!"m1"]]), (c!"b", [[c!"m2"]])], [(c!"c", [[c!"m3"]]), (c!"a", [[c!"m4"], [c!"m5"]])]]
      [c!"b"] (some [(c!"c", [[c!"x"]]), (c!"d", [[c!"y"]])]) =
    some [(c!"a", [[c!"m1"], [c!"m4"], [c!"m5"]]), (c!"c", [[c!"x"]])] := by decide

/-! ## C54 -/

/-- C54.  The override flag is parsed into a name and masks iff it writes them. -/
theorem C54_grammar (raw name : Str) (masks : List Mask) :
    parseOverride raw = .ok (name, masks) ↔ WritesOverride name masks raw := by
  unfold parseOverride WritesOverride
  constructor
  · intro h
    split at h
    · cases h
    · rename_i n d hc
      obtain ⟨rfl, hn⟩ := (cut1_some ':' raw n d).mp hc
      simp only at h
      split at h
      · cases h
      · rename_i hname
        split at h
        · cases h
        · rw [masks_trim] at h
          cases hm : (splitOn1 ',' d).mapM parseMask with
          | error e => rw [hm] at h; cases h
          | ok ms =>
            rw [hm] at h
            have h : (Except.ok (trimSpace n, ms) : Except OverrideError _) = .ok (name, masks) := h
            obtain ⟨rfl, rfl⟩ := Prod.mk.inj (Except.ok.inj h)
            obtain ⟨ps, h1, rfl, h2⟩ := (masks_ok d ms).mp hm
            exact ⟨n, ps, rfl, hn, trimSpace_padded n, by simpa using hname, h1, h2⟩
  · rintro ⟨n, ps, rfl, hn, hp, hne, h0, h⟩
    rw [(cut1_some ':' _ n _).mpr ⟨rfl, hn⟩]
    simp only
    rw [trimSpace_of_padded hp, if_neg (by simpa using hne)]
    have hm := (masks_ok (sepBy ',' ps) masks).mpr ⟨ps, h0, rfl, h⟩
    rw [if_neg, masks_trim, hm]
    · rfl
    · intro he
      have he : trimSpace (sepBy ',' ps) = [] := by simpa using he
      rw [← masks_trim, he] at hm
      simp [splitOn1, parseMask, trimSpace, trimLeftSpace, trimRightSpace] at hm

/-- C54.  The errors: no colon; a name of white space only; a definition of white space only; otherwise an empty mask name. -/
theorem C54_errors (raw : Str) :
    (parseOverride raw = .error .noColon ↔ ':' ∉ raw) ∧
    (parseOverride raw = .error .emptyName ↔ ∃ n d, raw = n ++ ':' :: d ∧ ':' ∉ n ∧ ∀ c ∈ n, isSpaceRune c = true) ∧
    (parseOverride raw = .error .emptyDefinition ↔
      ∃ n d, raw = n ++ ':' :: d ∧ ':' ∉ n ∧ (∃ c ∈ n, isSpaceRune c = false) ∧ ∀ c ∈ d, isSpaceRune c = true) ∧
    (parseOverride raw = .error .emptyMask ↔
      ∃ n d, raw = n ++ ':' :: d ∧ ':' ∉ n ∧ (∃ c ∈ n, isSpaceRune c = false) ∧ (∃ c ∈ d, isSpaceRune c = false) ∧
        ¬ ∃ name masks, WritesOverride name masks raw) := by
  have hblank : ∀ s : Str, (trimSpace s == []) = true ↔ ∀ c ∈ s, isSpaceRune c = true := by
    intro s; rw [beq_iff_eq, trimSpace_iff, padded_nil]
  have hblank' : ∀ s : Str, ¬ (trimSpace s == []) = true ↔ ∃ c ∈ s, isSpaceRune c = false := by
    intro s; rw [hblank]; simp
  have hmask : ∀ (d : Str) e, (splitOn1 ',' d).mapM parseMask = .error e → e = .emptyMask := by
    intro d e
    generalize splitOn1 ',' d = l
    induction l with
    | nil => intro h; cases h
    | cons x l ih =>
      intro h
      rw [List.mapM_cons] at h
      cases hx : parseMask x with
      | error e' =>
        rw [hx] at h
        have : e' = e := Except.error.inj h
        subst this
        unfold parseMask at hx
        simp only at hx
        split at hx
        · exact (Except.error.inj hx).symm
        · cases hx
      | ok y =>
        cases hl : l.mapM parseMask with
        | error e' =>
          rw [hx, hl] at h
          have : e' = e := Except.error.inj h
          subst this
          exact ih hl
        | ok ys => rw [hx, hl] at h; cases h
  have hw : ∀ name masks, WritesOverride name masks raw ↔ parseOverride raw = .ok (name, masks) :=
    fun name masks => (C54_grammar raw name masks).symm
  simp only [hw]
  have huniq : ∀ {n d n' d' : Str}, ':' ∉ n → ':' ∉ n' → n ++ ':' :: d = n' ++ ':' :: d' → n = n' ∧ d = d' := by
    intro n d n' d' h1 h2 h
    have e1 := (cut1_some ':' (n ++ ':' :: d) n d).mpr ⟨rfl, h1⟩
    rw [h, (cut1_some ':' _ n' d').mpr ⟨rfl, h2⟩] at e1
    obtain ⟨a, b⟩ := Prod.mk.inj (Option.some.inj e1)
    exact ⟨a.symm, b.symm⟩
  cases hc : cut1 ':' raw with
  | none =>
    have hn := (cut1_none ':' raw).mp hc
    have hp : parseOverride raw = .error .noColon := by unfold parseOverride; rw [hc]
    have hno : ∀ n d : Str, raw ≠ n ++ ':' :: d := by
      rintro n d rfl; simp at hn
    simp [hp, hn, hno]
  | some nd =>
    obtain ⟨n, d⟩ := nd
    obtain ⟨rfl, hn⟩ := (cut1_some ':' raw n d).mp hc
    have hex : ∀ P : Str → Str → Prop, (∃ n' d', n ++ ':' :: d = n' ++ ':' :: d' ∧ ':' ∉ n' ∧ P n' d') ↔ P n d := by
      intro P
      constructor
      · rintro ⟨n', d', h1, h2, h3⟩
        obtain ⟨rfl, rfl⟩ := huniq hn h2 h1; exact h3
      · intro h; exact ⟨n, d, rfl, hn, h⟩
    rw [hex (fun n _ => ∀ c ∈ n, isSpaceRune c = true),
      hex (fun n d => (∃ c ∈ n, isSpaceRune c = false) ∧ ∀ c ∈ d, isSpaceRune c = true),
      hex (fun n' d' => (∃ c ∈ n', isSpaceRune c = false) ∧ (∃ c ∈ d', isSpaceRune c = false) ∧
        ¬ ∃ name masks, parseOverride (n ++ ':' :: d) = .ok (name, masks))]
    have hp : parseOverride (n ++ ':' :: d) = if (trimSpace n == []) = true then .error .emptyName else
        if (trimSpace d == []) = true then .error .emptyDefinition else
        (splitOn1 ',' d).mapM parseMask >>= fun masks => .ok (trimSpace n, masks) := by
      unfold parseOverride
      rw [hc]
      simp only [masks_trim]
    rw [hp, ← hblank' n, ← hblank' d, ← hblank n, ← hblank d]
    have hcolon : ¬ ':' ∉ n ++ ':' :: d := by simp
    by_cases h1 : (trimSpace n == []) = true
    · simp [h1]
    · by_cases h2 : (trimSpace d == []) = true
      · simp [h1, h2]
      · simp only [h1, h2]
        cases hm : (splitOn1 ',' d).mapM parseMask with
        | error e =>
          obtain rfl := hmask d e hm
          have : (Except.error (ε := OverrideError) .emptyMask >>= fun masks : List Mask => Except.ok (trimSpace n, masks)) =
            .error .emptyMask := rfl
          simp [this]
        | ok ms =>
          have : (Except.ok (ε := OverrideError) ms >>= fun masks : List Mask => Except.ok (trimSpace n, masks)) =
            .ok (trimSpace n, ms) := rfl
          simp [this]

example : parseOverride c!" log_format : a | b ,c" = .ok (c!"log_format", [[c!"a", c!"b"], [c!"c"]]) ∧
    parseOverride c!"x" = .error .noColon ∧ parseOverride c!" :a" = .error .emptyName ∧
    parseOverride c!"x: " = .error .emptyDefinition ∧ parseOverride c!"x:a||b" = .error .emptyMask ∧
    parseOverride c!"x:a:b" = .ok (c!"x", [[c!"a:b"]]) := ⟨rfl, rfl, rfl, rfl, rfl, rfl⟩

/-! ## C55 -/

theorem namesMask_iff (text c : Str) : NamesMask text c ↔ ∃ p ∈ splitOn1 '|' text, trimSpace p = c := by
  constructor
  · rintro ⟨ps, h0, rfl, h1, p, hp, hc⟩
    rw [splitOn1_sepBy _ _ h0 h1]
    exact ⟨p, hp, trimSpace_of_padded hc⟩
  · rintro ⟨p, hp, rfl⟩
    exact ⟨_, splitOn1_ne_nil _ _, (splitOn1_spec '|' text).1.symm, (splitOn1_spec '|' text).2, p, hp, trimSpace_padded p⟩

theorem ngxVar_keys : ∀ c, (ngxVarNameToGo.lookup c).isSome = true ↔ c ∈ cMasks.map (·.1) := by
  have h1 : ∀ c ∈ cMasks.map (·.1), (ngxVarNameToGo.lookup c).isSome = true := by decide +kernel
  have h2 : ∀ c ∈ ngxVarNameToGo.map (·.1), c ∈ cMasks.map (·.1) := by decide +kernel
  intro c
  constructor
  · intro h
    apply h2
    cases hl : ngxVarNameToGo.lookup c with
    | none => rw [hl] at h; cases h
    | some g =>
      rw [List.lookup_eq_some_iff] at hl
      obtain ⟨l1, l2, hl, -⟩ := hl
      rw [hl]; simp
  · exact h1 c

/-- What the table of names does to each C name. -/
theorem ngxVar_value (c g : Str) (h : ngxVarNameToGo.lookup c = some g) :
    if c = c!"NGX_CONF_TAKE7" then goConsts.lookup g = none
    else ∃ bits v, cMasks.lookup c = some bits ∧ goConsts.lookup g = some v ∧ v = (bits.map (2 ^ ·)).sum := by
  have h0 : ∀ c ∈ cMasks.map (·.1), c ≠ c!"NGX_CONF_TAKE7" → ((ngxVarNameToGo.lookup c).bind fun g => goConsts.lookup g).isSome = true ∧
      ((ngxVarNameToGo.lookup c).bind fun g => goConsts.lookup g) = (cMasks.lookup c).map fun bits => (bits.map (2 ^ ·)).sum := by
    decide +kernel
  have h7 : ngxVarNameToGo.lookup c!"NGX_CONF_TAKE7" = some c!"ngxConfTake7" ∧ goConsts.lookup c!"ngxConfTake7" = none := by
    decide +kernel
  have hc := (ngxVar_keys c).mp (by rw [h]; rfl)
  split
  · rename_i hc7
    subst hc7
    rw [h7.1] at h
    cases h
    exact h7.2
  · rename_i hc7
    obtain ⟨h1, h2⟩ := h0 c hc hc7
    rw [h] at h1 h2
    simp only [Option.bind_some] at h1 h2
    cases hv : goConsts.lookup g with
    | none => rw [hv] at h1; cases h1
    | some v =>
      rw [hv] at h2
      cases hb : cMasks.lookup c with
      | none => rw [hb] at h2; cases h2
      | some bits =>
        rw [hb] at h2
        exact ⟨bits, v, rfl, rfl, Option.some.inj h2⟩

theorem translateMask_ok (text : Str) (mask : Mask) :
    translateMask text = .ok mask ↔
      List.Forall₂ (fun p g => ngxVarNameToGo.lookup (trimSpace p) = some g) (splitOn1 '|' text) mask := by
  unfold translateMask
  rw [mapM_ok]
  constructor
  all_goals
    intro h
    refine h.flip.imp ?_
    intro a b hab
    cases hl : ngxVarNameToGo.lookup (trimSpace a) with
    | none => simp_all
    | some g => simp_all

theorem translateMask_error (text : Str) :
    (∃ v, translateMask text = .error v) ↔ ∃ c, NamesMask text c ∧ c ∉ cMasks.map (·.1) := by
  unfold translateMask
  have : (∃ c, NamesMask text c ∧ c ∉ cMasks.map (·.1)) ↔
      ∃ p ∈ splitOn1 '|' text, (ngxVarNameToGo.lookup (trimSpace p)).isSome = false := by
    constructor
    · rintro ⟨c, h, hc⟩
      obtain ⟨p, hp, rfl⟩ := (namesMask_iff _ _).mp h
      exact ⟨p, hp, by rw [← ngxVar_keys, Bool.not_eq_true] at hc; exact hc⟩
    · rintro ⟨p, hp, h⟩
      exact ⟨_, (namesMask_iff _ _).mpr ⟨p, hp, rfl⟩, by rw [← ngxVar_keys, h]; simp⟩
  rw [this]
  generalize splitOn1 '|' text = l
  induction l with
  | nil => simp; intro v h; cases h
  | cons p l ih =>
    simp only [List.mem_cons, exists_eq_or_imp, ← ih, List.mapM_cons]
    cases hp : ngxVarNameToGo.lookup (trimSpace p) with
    | none =>
      simp
      exact ⟨p, rfl⟩
    | some g =>
      simp only [Option.isSome_some, Bool.true_eq_false, false_or]
      cases hl : l.mapM fun v => match ngxVarNameToGo.lookup (trimSpace v) with
        | some g => (.ok g : Except Str Str)
        | none => .error v with
      | error e => exact ⟨fun _ => ⟨e, rfl⟩, fun _ => ⟨e, rfl⟩⟩
      | ok gs => constructor <;> (rintro ⟨v, h⟩; cases h)

theorem masksFromDefs_spec (defs : List (Str × Str)) (acc m : MaskMap) (hnd : (acc.map (·.1)).Nodup)
    (h : masksFromDefs defs acc = .ok m) :
    (m.map (·.1)).Nodup ∧ ∃ masks, List.Forall₂ (fun d mask => translateMask d.2 = .ok mask) defs masks ∧
      (∀ name, name ∈ m.map (·.1) ↔ name ∈ acc.map (·.1) ∨ ∃ d ∈ defs, trimSpace d.1 = name) ∧
      ∀ name, (m.lookup name).getD [] = (acc.lookup name).getD [] ++
        ((defs.zip masks).filter (fun e => trimSpace e.1.1 == name)).map (·.2) := by
  induction defs generalizing acc with
  | nil =>
    unfold masksFromDefs at h
    cases h
    exact ⟨hnd, [], .nil, by simp, by simp⟩
  | cons d defs ih =>
    unfold masksFromDefs at h
    cases ht : translateMask d.2 with
    | error v => rw [ht] at h; cases h
    | ok mask =>
      rw [ht] at h
      obtain ⟨h1, masks, h2, h3, h4⟩ := ih _ (nodup_append _ _ _ hnd) h
      refine ⟨h1, mask :: masks, .cons ht h2, fun name => ?_, fun name => ?_⟩
      · rw [h3, keys_append]
        simp only [List.mem_cons, exists_eq_or_imp]
        split
        · rename_i hk
          constructor
          · rintro (h | h)
            · exact Or.inl h
            · exact Or.inr (Or.inr h)
          · rintro (h | h | h)
            · exact Or.inl h
            · exact Or.inl (h ▸ hk)
            · exact Or.inr h
        · rw [List.mem_append, List.mem_singleton]
          constructor
          · rintro ((h | h) | h)
            · exact Or.inl h
            · exact Or.inr (Or.inl h.symm)
            · exact Or.inr (Or.inr h)
          · rintro (h | h | h)
            · exact Or.inl (Or.inl h)
            · exact Or.inl (Or.inr h.symm)
            · exact Or.inr h
      · rw [h4, lookup_append, List.zip_cons_cons, List.filter_cons]
        by_cases hn : name = trimSpace d.1
        · simp [hn]
        · have : ¬ trimSpace d.1 = name := fun h => hn h.symm
          simp [hn, this]

/-- C55.  A C file's definitions give an error iff one of the masks has a name that nginx does not define. -/
theorem C55_error_iff (defs : List (Str × Str)) :
    (∃ e, masksFromDefs defs [] = .error e) ↔ ∃ d ∈ defs, ∃ c, NamesMask d.2 c ∧ c ∉ cMasks.map (·.1) := by
  generalize ([] : MaskMap) = acc
  induction defs generalizing acc with
  | nil => simp [masksFromDefs]
  | cons d defs ih =>
    unfold masksFromDefs
    simp only [List.mem_cons, exists_eq_or_imp, ← translateMask_error]
    cases ht : translateMask d.2 with
    | error v => simp
    | ok mask => simp only [ih, ← translateMask_error]; simp

/-- C55.  If no definition uses `NGX_CONF_TAKE7`, the table has exactly the names defined, each with one mask per definition, in
order, and the constants of the mask have the values that nginx's names stand for. -/
theorem C55_table (defs : List (Str × Str)) (m : MaskMap) (h : masksFromDefs defs [] = .ok m)
    (h7 : ∀ d ∈ defs, ¬ NamesMask d.2 c!"NGX_CONF_TAKE7") :
    (m.map (·.1)).Nodup ∧ (∀ name, name ∈ m.map (·.1) ↔ ∃ d ∈ defs, Padded name d.1) ∧
    ∃ masks, List.Forall₂ (fun d mask => Means goConsts d.2 mask) defs masks ∧
      ∀ name masks', (name, masks') ∈ m →
        masks' = ((defs.zip masks).filter (fun e => trimSpace e.1.1 == name)).map (·.2) := by
  obtain ⟨h1, masks, h2, h3, h4⟩ := masksFromDefs_spec defs [] m (by simp) h
  refine ⟨h1, fun name => ?_, masks, ?_, ?_⟩
  · rw [h3]; simp [trimSpace_iff]
  · have h2' : List.Forall₂ (fun d mask => d ∈ defs ∧ translateMask d.2 = .ok mask) defs masks :=
      List.forall₂_iff_get.mpr ⟨h2.length_eq, fun i hi hi' => ⟨List.get_mem _ _, (List.forall₂_iff_get.mp h2).2 i hi hi'⟩⟩
    refine h2'.imp ?_
    rintro d mask ⟨hd, ht⟩
    rw [translateMask_ok] at ht
    have hno : ∀ p ∈ splitOn1 '|' d.2, trimSpace p ≠ c!"NGX_CONF_TAKE7" := fun p hp he =>
      h7 d hd ((namesMask_iff _ _).mpr ⟨p, hp, he⟩)
    refine ⟨splitOn1 '|' d.2, splitOn1_ne_nil _ _, (splitOn1_spec '|' d.2).1.symm, (splitOn1_spec '|' d.2).2, ?_⟩
    generalize splitOn1 '|' d.2 = l at ht hno
    induction ht with
    | nil => exact .nil
    | cons hg _ ih =>
      refine .cons ?_ (ih fun p hp => hno p (List.mem_cons_of_mem _ hp))
      have := ngxVar_value _ _ hg
      rw [if_neg (hno _ List.mem_cons_self)] at this
      obtain ⟨bits, v, hb⟩ := this
      exact ⟨_, bits, v, trimSpace_padded _, hb⟩
  · intro name masks' hm
    have hl : m.lookup name = some masks' := by
      clear h h3 h4
      induction m with
      | nil => cases hm
      | cons e m ih =>
        simp only [List.map_cons, List.nodup_cons] at h1
        rcases List.mem_cons.mp hm with rfl | hm'
        · simp
        · have : (name == e.1) = false := by
            apply beq_false_of_ne
            rintro rfl
            exact h1.1 (List.mem_map.mpr ⟨_, hm', rfl⟩)
          rw [List.lookup_cons, this]
          exact ih h1.2 hm'
    have := h4 name
    rw [hl] at this
    simpa using this

/-- C55.  A definition with `NGX_CONF_TAKE7` puts into the table a constant that analyze.go does not declare: the generated file
does not compile. -/
theorem C55_undeclared (defs : List (Str × Str)) (m : MaskMap) (h : masksFromDefs defs [] = .ok m)
    (h7 : ∃ d ∈ defs, NamesMask d.2 c!"NGX_CONF_TAKE7") :
    ∃ name masks mask g, (name, masks) ∈ m ∧ mask ∈ masks ∧ g ∈ mask ∧ goConsts.lookup g = none := by
  obtain ⟨d, hd, hn⟩ := h7
  obtain ⟨h1, masks, h2, h3, h4⟩ := masksFromDefs_spec defs [] m (by simp) h
  obtain ⟨i, hi, rfl⟩ := List.getElem_of_mem hd
  have hi' : i < masks.length := h2.length_eq ▸ hi
  have ht := (List.forall₂_iff_get.mp h2).2 i hi hi'
  simp only [List.get_eq_getElem] at ht
  have hk : trimSpace defs[i].1 ∈ m.map (·.1) := (h3 _).mpr (Or.inr ⟨_, hd, rfl⟩)
  obtain ⟨ms, hl⟩ := Option.isSome_iff_exists.mp ((lookup_isSome m _).mpr hk)
  have h4' := h4 (trimSpace defs[i].1)
  rw [hl] at h4'
  simp only [Option.getD_some, List.lookup_nil, Option.getD_none, List.nil_append] at h4'
  obtain ⟨p, hp, hp7⟩ := (namesMask_iff _ _).mp hn
  rw [translateMask_ok] at ht
  obtain ⟨j, hj, rfl⟩ := List.getElem_of_mem hp
  have hj' : j < masks[i].length := ht.length_eq ▸ hj
  have hg := (List.forall₂_iff_get.mp ht).2 j hj hj'
  simp only [List.get_eq_getElem] at hg
  have hv := ngxVar_value _ _ hg
  rw [if_pos hp7] at hv
  refine ⟨trimSpace defs[i].1, ms, masks[i], _, ?_, ?_, List.getElem_mem hj', hv⟩
  · rw [List.lookup_eq_some_iff] at hl
    obtain ⟨l1, l2, rfl, -⟩ := hl
    simp
  · rw [h4', List.mem_map]
    refine ⟨(defs[i], masks[i]), List.mem_filter.mpr ⟨?_, by simp⟩, rfl⟩
    rw [List.mem_iff_getElem]
    exact ⟨i, by rw [List.length_zip]; omega, by simp⟩

example : masksFromDefs [(c!"a", c!" NGX_MAIN_CONF|NGX_CONF_TAKE12 "), (c!" a ", c!"NGX_CONF_FLAG"), (c!"b", c!"NGX_CONF_TAKE7")] [] =
      .ok [(c!"a", [[c!"ngxMainConf", c!"ngxConfTake12"], [c!"ngxConfFlag"]]), (c!"b", [[c!"ngxConfTake7"]])] ∧
    masksFromDefs [(c!"a", c!"NGX_MAIN_CONF|0")] [] = .error (c!"a", c!"0") := ⟨rfl, rfl⟩

end Verif
