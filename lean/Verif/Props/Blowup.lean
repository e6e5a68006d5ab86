import Verif.Props.Size
import Verif.Props.External
import Verif.Props.ProjectCombined
/-!
# C72: combined configurations can be exponentially large

`n + 1` files, each of which includes the next one twice.
-/
namespace Verif
open Spec

/-- The name of file `i`. -/
def chainName (i : Nat) : Str := '/' :: List.replicate i 'a'

/-- The text of file `i`. -/
def chainText (n i : Nat) : Str :=
  if i < n then c!"include " ++ chainName (i + 1) ++ c!";include " ++ chainName (i + 1) ++ c!";" else c!"x;"

/-- The files. -/
def chainData (n : Nat) (f : Str) : Option FileData :=
  if f = chainName (f.length - 1) ∧ f.length - 1 ≤ n then some { runes := chainText n (f.length - 1) } else none

/-- The file system. -/
def chainEnv (n : Nat) : Env where
  openFile := fun _ f => match chainData n f with
    | some d => .ok d
    | none => .error (.other [])
  glob := fun _ _ => .error (.other [])
  isAbs := fun _ => true
  join := fun d f => d ++ f
  dir := fun _ => c!"/"
  mapOrder := id

/-- No directive is known. -/
def chainOpts : ParseOptions := { directiveSources := [fun _ => none] }

/-- The tree of file `i`. -/
def chainTree (n i : Nat) : List Directive :=
  if i < n then [incl 1 (chainName (i + 1)) [((i + 1 : Nat) : Int)], incl 1 (chainName (i + 1)) [((i + 1 : Nat) : Int)]] else [dir c!"x" 1 []]

/-- The project. -/
def chainFiles (n : Nat) : List SourceFile := (List.range (n + 1)).map fun i => ⟨chainName i, [], chainTree n i⟩

theorem chainName_length (i : Nat) : (chainName i).length = i + 1 := by simp [chainName]

theorem chainName_inj {i j : Nat} (h : chainName i = chainName j) : i = j := by
  have := congrArg List.length h
  rw [chainName_length, chainName_length] at this
  omega

theorem chainData_name {n i : Nat} (h : i ≤ n) : chainData n (chainName i) = some { runes := chainText n i } := by
  unfold chainData
  rw [chainName_length, Nat.add_sub_cancel, if_pos ⟨rfl, h⟩]

theorem chain_readOnly (n : Nat) : ReadOnly (chainEnv n) (chainData n) (fun _ => none) where
  isFile := by intro k f d h; simp only [chainEnv, h]
  noFile := by intro k f h; exact ⟨.other [], by simp only [chainEnv, h]⟩
  found := by intro k p l h; cases h
  notFound := by intro k p _; exact ⟨_, rfl⟩

theorem chain_followed (n : Nat) : Followed (chainEnv n) chainOpts (chainData n) (fun _ => none) :=
  ⟨fun _ => List.Perm.refl _, chain_readOnly n, rfl, rfl⟩

theorem chainName_chars {i : Nat} {c : Char} (h : c ∈ chainName i) : c = '/' ∨ c = 'a' := by
  rcases List.mem_cons.mp h with h | h
  · exact Or.inl h
  · exact Or.inr (List.eq_of_mem_replicate h)

/-- The names of include directives. -/
def chainNames (n : Nat) : List Str → Option (List Str) := diskNames (chainEnv n) c!"/" (chainData n) (fun _ => none)

theorem chainNames_eq {n i : Nat} (h : i ≤ n) : chainNames n [chainName i] = some [chainName i] := by
  have h1 : ∀ c, c = '*' ∨ c = '?' ∨ c = '[' → c ∉ chainName i := by
    intro c hc hm
    rcases chainName_chars hm with rfl | rfl <;> simp at hc
  simp only [chainNames, diskNames, namesIn, chainEnv, if_true]
  rw [if_neg (by simp [h1]), chainData_name h]
  rfl

/-! ## The tokens -/

theorem run_letters {s : Str} (h : ∀ c ∈ s, isSpaceRune c = false ∧ isSpecialChar c = false ∧ c ≠ '$') (p : Bool) (hp : p = false) :
    WordPos.run (.out p) (s.map .plain) = some (.out false) := by
  subst hp
  induction s with
  | nil => rfl
  | cons c s ih =>
    obtain ⟨h1, h2, h3⟩ := h c (by simp)
    have hn : WordPos.next (.out false) (.plain c) = some (.out false) := by
      simp [WordPos.next, h1, h2, h3]
    rw [List.map_cons, WordPos.run, hn]
    exact ih fun d hd => h d (by simp [hd])

/-- The items of a word of letters. -/
theorem wf_letters {c : Char} {s : Str} {rest : List Item} (h : ∀ d ∈ c :: s, isSpaceRune d = false ∧ isSpecialChar d = false ∧ d ≠ '$' ∧ d ≠ '\\' ∧ d ≠ '\r' ∧
      d ≠ '"' ∧ d ≠ '\'' ∧ d ≠ '#') (hr : wordEnd (.out false) rest) (hw : WF rest) : WF (.word ((c :: s).map .plain) :: rest) := by
  refine ⟨?_, ⟨.plain c, s.map .plain, rfl, ?_⟩, ⟨.out false, run_letters (fun d hd => ⟨(h d hd).1, (h d hd).2.1, (h d hd).2.2.1⟩) false rfl, hr⟩, hw⟩
  · intro u hu
    obtain ⟨d, hd, rfl⟩ := List.mem_map.mp hu
    exact ⟨(h d hd).2.2.2.1, (h d hd).2.2.2.2.1⟩
  · have := h c (by simp)
    exact ⟨by simp [this.1], by simp [this.2.1], this.2.2.2.2.2⟩

theorem chain_letters {i : Nat} : ∀ d ∈ chainName i, isSpaceRune d = false ∧ isSpecialChar d = false ∧ d ≠ '$' ∧ d ≠ '\\' ∧ d ≠ '\r' ∧ d ≠ '"' ∧ d ≠ '\'' ∧ d ≠ '#' := by
  intro d hd
  rcases chainName_chars hd with rfl | rfl <;> decide

theorem lex_include (i : Nat) : lex (c!"include " ++ chainName i ++ c!";include " ++ chainName i ++ c!";") =
    [⟨c!"include", 1, false, none⟩, ⟨chainName i, 1, false, none⟩, ⟨c!";", 1, false, none⟩,
     ⟨c!"include", 1, false, none⟩, ⟨chainName i, 1, false, none⟩, ⟨c!";", 1, false, none⟩] := by
  have hw : WF [.word (c!"include".map .plain), .space ' ', .word ((chainName i).map .plain), .special ';',
      .word (c!"include".map .plain), .space ' ', .word ((chainName i).map .plain), .special ';'] := by
    have hi : ∀ d ∈ c!"include", isSpaceRune d = false ∧ isSpecialChar d = false ∧ d ≠ '$' ∧ d ≠ '\\' ∧ d ≠ '\r' ∧ d ≠ '"' ∧ d ≠ '\'' ∧ d ≠ '#' := by decide
    have h4 : WF [.special ';'] := ⟨by decide, trivial⟩
    have h3 : WF [.word ((chainName i).map .plain), .special ';'] := wf_letters chain_letters (by simp [wordEnd]) h4
    have h2 : WF [.word (c!"include".map .plain), .space ' ', .word ((chainName i).map .plain), .special ';'] :=
      wf_letters hi trivial ⟨by decide, by decide, h3⟩
    exact wf_letters hi trivial ⟨by decide, by decide, wf_letters chain_letters (by simp [wordEnd]) ⟨by decide, h2⟩⟩
  have hl := C03_tokens_of_items hw (Or.inl rfl)
  have hn : nls (chainName i) = 0 := by
    unfold nls
    exact_mod_cast List.count_eq_zero.mpr fun h => by rcases chainName_chars h with h | h <;> cases h
  have ht : ∀ s : Str, textOf (s.map .plain) = s := textOf_plain
  have hwl : wordLine 1 ((chainName i).map .plain) = 1 := rfl
  have hu : unlex [.word (c!"include".map .plain), .space ' ', .word ((chainName i).map .plain), .special ';',
      .word (c!"include".map .plain), .space ' ', .word ((chainName i).map .plain), .special ';'] ++ [] =
      c!"include " ++ chainName i ++ c!";include " ++ chainName i ++ c!";" := by
    simp only [unlex, List.flatMap_cons, List.flatMap_nil, Item.text, ht]
    simp
  rw [hu] at hl
  rw [hl]
  have hni : nls c!"include" = 0 := by decide
  have hns : nls [' '] = 0 := by decide
  have hwi : wordLine 1 (c!"include".map .plain) = 1 := rfl
  simp only [toksOf, specToks, ht, hn, hni, hns, Int.add_zero, hwl, hwi]
  simp

/-! ## The project -/

theorem chain_unknown (s : Str) (args : List Str) (term : Str) : analyze [] { directive := s, line := 1, args := args } term [] chainOpts = none := by
  have hk : lookupMasks chainOpts s = none := rfl
  unfold analyze
  simp only [hk]
  rw [if_neg (by simp [chainOpts])]
  split
  · rename_i h; cases h
  · rfl

theorem chain_word (i : Nat) : WordTok ⟨chainName i, 1, false, none⟩ := wordTok_iff.mpr ⟨by simp [Tok.isTerm, chainName], by simp [Tok.isCommentTok, chainName, hasPrefix, List.isPrefixOf]⟩

theorem chain_conf {n i : Nat} (hi : i ≤ n) : Conf (rulesOf chainOpts (chainNames n)) [] (unlink (chainTree n i)) (lex (chainText n i)) := by
  have stmt : ∀ (v : Str) (args : List Str) (ds : List Directive) (toks : List Tok), WordTok ⟨v, 1, false, none⟩ → (∀ a ∈ args, WordTok ⟨a, 1, false, none⟩) →
      v ≠ c!"if" → (v = c!"include" → (chainNames n args).isSome = true) → Conf (rulesOf chainOpts (chainNames n)) [] ds toks →
      Conf (rulesOf chainOpts (chainNames n)) [] (dir v 1 args :: ds)
        (⟨v, 1, false, none⟩ :: (args.map (fun a => ⟨a, 1, false, none⟩) ++ ⟨c!";", 1, false, none⟩ :: toks)) := by
    intro v args ds toks h1 h2 h3 h4 h5
    refine Conf.simple (mid := args.map fun a => ⟨a, 1, false, none⟩) (texts := []) (mapCtx_none.mp rfl) (by simp [rulesOf, chainOpts]) h1 ?_ ⟨rfl, rfl⟩
      ((analyze_rules [] { directive := v, line := 1, args := args } c!";" [] _ _).mp (chain_unknown ..)) (by rw [StmtArgs, if_neg h3]) h4 h5
    clear h4
    induction args with
    | nil => exact .nil
    | cons a args ih => exact .word (h2 a (by simp)) (ih fun b hb => h2 b (by simp [hb]))
  unfold chainText chainTree
  by_cases h : i < n
  · rw [if_pos h, if_pos h, lex_include]
    have hN : ∀ a ∈ [chainName (i + 1)], WordTok ⟨a, 1, false, none⟩ := by
      intro a ha
      obtain rfl := List.mem_singleton.mp ha
      exact chain_word _
    have hF : (chainNames n [chainName (i + 1)]).isSome = true := by rw [chainNames_eq (by omega)]; rfl
    exact stmt c!"include" [chainName (i + 1)] _ _ (exWord (by decide)) hN (by decide) (fun _ => hF)
      (stmt c!"include" [chainName (i + 1)] _ _ (exWord (by decide)) hN (by decide) (fun _ => hF) .nil)
  · rw [if_neg h, if_neg h]
    have hl : lex c!"x;" = [⟨c!"x", 1, false, none⟩, ⟨c!";", 1, false, none⟩] := by decide +kernel
    rw [hl]
    exact stmt c!"x" [] _ _ (exWord (by decide)) (fun a ha => by cases ha) (by decide) (fun h => by cases h) .nil

theorem chain_refs {n i : Nat} : SourceFile.refs (chainNames n) ⟨chainName i, [], chainTree n i⟩ =
    if i < n then [(chainName (i + 1), []), (chainName (i + 1), [])] else [] := by
  unfold SourceFile.refs chainTree
  by_cases h : i < n
  · rw [if_pos h, if_pos h]
    have : standsFor (chainNames n) c!"include" [chainName (i + 1)] false = [chainName (i + 1)] := by
      rw [standsFor, if_pos ⟨rfl, rfl⟩, chainNames_eq (by omega)]; rfl
    simp only [refsList, refs, incl, this, refsOpt]
    rfl
  · rw [if_neg h, if_neg h]; rfl

theorem chain_collect (n m k : Nat) : collect ((List.range (k + 1)).map fun i => (chainName i, [])) ((List.range' k m).flatMap fun i =>
      [(chainName (i + 1), []), (chainName (i + 1), [])]) = (List.range (k + 1 + m)).map fun i => (chainName i, []) := by
  induction m generalizing k with
  | zero => rfl
  | succ m ih =>
    rw [List.range'_succ, List.flatMap_cons, collect_append]
    have h1 : collect ((List.range (k + 1)).map fun i => (chainName i, [])) [(chainName (k + 1), []), (chainName (k + 1), [])] =
        (List.range (k + 1 + 1)).map fun i => (chainName i, []) := by
      rw [collect_cons, if_neg, collect_cons, if_pos, collect_nil, List.range_succ (n := k + 1), List.map_append]
      · rfl
      · simp
      · simp only [List.map_map, List.mem_map, List.mem_range, Function.comp_apply, not_exists, not_and]
        intro x hx he
        have := chainName_inj he
        omega
    rw [h1, ih (k + 1)]
    congr 2
    omega

theorem chain_get {n : Nat} {f : SourceFile} (h : f ∈ chainFiles n) : ∃ i ≤ n, f = ⟨chainName i, [], chainTree n i⟩ := by
  obtain ⟨i, hi, rfl⟩ := List.mem_map.mp h
  exact ⟨i, by have := List.mem_range.mp hi; omega, rfl⟩

theorem chain_project (n : Nat) : IsProject (chainEnv n) chainOpts (chainData n) (fun _ => none) (chainName 0) (chainFiles n) where
  files := by
    show _ = collect _ ((chainFiles n).flatMap (·.refs (chainNames n)))
    have h1 : (chainFiles n).flatMap (·.refs (chainNames n)) = (List.range' 0 n).flatMap fun i => [(chainName (i + 1), []), (chainName (i + 1), [])] := by
      unfold chainFiles
      rw [List.flatMap_map, List.range_succ, List.flatMap_append, List.flatMap_singleton, chain_refs, if_neg (Nat.lt_irrefl n), List.append_nil,
        ← List.range_eq_range']
      refine List.flatMap_congr fun i hi => ?_
      rw [chain_refs, if_pos (List.mem_range.mp hi)]
    have h2 := chain_collect n n 0
    rw [h1]
    refine Eq.trans ?_ h2.symm
    unfold chainFiles
    rw [List.map_map, Nat.zero_add, Nat.add_comm 1 n]
    rfl
  earlier := by
    intro pre f post h hne
    have hlen : pre.length ≤ n := by
      have := congrArg List.length h
      simp only [chainFiles, List.length_map, List.length_range, List.length_append, List.length_cons] at this
      omega
    have hpos : 0 < pre.length := List.length_pos_iff.mpr hne
    have hf : (chainFiles n)[pre.length]? = some f := by rw [h]; simp
    have hg : (chainFiles n)[pre.length - 1]? = pre[pre.length - 1]? := by rw [h, List.getElem?_append_left (by omega)]
    have get : ∀ i ≤ n, (chainFiles n)[i]? = some ⟨chainName i, [], chainTree n i⟩ := by
      intro i hi
      unfold chainFiles
      rw [List.getElem?_map, List.getElem?_range (by omega)]
      rfl
    rw [get _ hlen] at hf
    rw [get _ (by omega)] at hg
    cases hf
    refine ⟨_, List.mem_of_getElem? hg.symm, ?_⟩
    show _ ∈ (SourceFile.refs (chainNames n) _).map _
    rw [chain_refs, if_pos (by omega), Nat.sub_add_cancel hpos]
    simp
  conf := by
    intro f hf
    obtain ⟨i, hi, rfl⟩ := chain_get hf
    refine ⟨lex (chainText n i), by simp only [chainData_name hi, Option.map_some, fileToks_lex (o := chainOpts) rfl], ?_, chain_conf hi⟩
    unfold chainText
    split
    · rw [lex_include]; simp
    · decide +kernel
  linked := by
    intro f hf
    obtain ⟨i, hi, rfl⟩ := chain_get hf
    show link (chainNames n) _ (chainTree n i) = chainTree n i
    unfold chainTree
    split
    · rename_i h
      have hs : standsFor (chainNames n) c!"include" [chainName (i + 1)] false = [chainName (i + 1)] := by
        rw [standsFor, if_pos ⟨rfl, rfl⟩, chainNames_eq (by omega)]; rfl
      have hidx : ((chainFiles n).map (·.name)).idxOf (chainName (i + 1)) = i + 1 := by
        have hnd : ((chainFiles n).map (·.name)).Nodup := by
          unfold chainFiles
          rw [List.map_map]
          exact List.nodup_range.map fun a b hab => chainName_inj hab
        have hget : ((chainFiles n).map (·.name))[i + 1]? = some (chainName (i + 1)) := by
          unfold chainFiles
          rw [List.map_map, List.getElem?_map, List.getElem?_range (by omega)]
          rfl
        obtain ⟨hlt, he⟩ := List.getElem?_eq_some_iff.mp hget
        rw [← he]
        exact hnd.idxOf_getElem _ _
      simp only [link, setLinksList, setLinks, incl, hs, hidx, setLinksOpt, List.map_cons, List.map_nil]
    · rfl
  acyclic := by
    have hlt : ∀ a b, Relation.TransGen (fun a b => ∃ f ∈ chainFiles n, f.name = a ∧ b ∈ (f.refs (chainNames n)).map (·.1)) a b → a.length < b.length := by
      have h1 : ∀ a b, (∃ f ∈ chainFiles n, f.name = a ∧ b ∈ (f.refs (chainNames n)).map (·.1)) → a.length < b.length := by
        rintro a b ⟨f, hf, rfl, hb⟩
        obtain ⟨i, hi, rfl⟩ := chain_get hf
        rw [chain_refs] at hb
        split at hb
        · obtain rfl : b = chainName (i + 1) := by simpa using hb
          show (chainName i).length < _
          rw [chainName_length, chainName_length]; omega
        · cases hb
      intro a b h
      induction h with
      | single h => exact h1 _ _ h
      | tail _ h ih => exact Nat.lt_trans ih (h1 _ _ h)
    intro a h
    exact Nat.lt_irrefl _ (hlt a a h)

/-! ## Combined -/

theorem Inlines.inv {cs : List Config} {l : List Int} {out : List Directive} (h : Inlines cs l out) :
    l = [] ∧ out = [] ∨ ∃ (i : Nat) (is : List Int) (c : Config) (o1 o2 : List Directive), l = (i : Int) :: is ∧ cs[i]? = some c ∧ Expands cs c.parsed o1 ∧
      Inlines cs is o2 ∧ out = o1 ++ o2 := by
  cases h with
  | nil => exact Or.inl ⟨rfl, rfl⟩
  | cons h1 h2 h3 => exact Or.inr ⟨_, _, _, _, _, rfl, h1, h2, h3, rfl⟩

theorem Expands.inv {cs : List Config} {d : Directive} {ds out : List Directive} (h : Expands cs (d :: ds) out) :
    (¬ IsInclude d ∧ ∃ b o2, Expands cs ds o2 ∧ out = { d with block := b } :: o2) ∨
    (IsInclude d ∧ ∃ o1 o2, Inlines cs (d.includes.getD []) o1 ∧ Expands cs ds o2 ∧ out = o1 ++ o2) := by
  cases h with
  | keep h1 h2 h3 => exact Or.inl ⟨h1, _, _, h3, rfl⟩
  | incl h1 h2 h3 h4 => exact Or.inr ⟨h1, _, _, h3, h4, rfl⟩

theorem chain_expand {n : Nat} {cs : List Config}
    (hcs : ∀ i ≤ n, ∃ c, cs[i]? = some c ∧ c.parsed = tagFile (chainName i) (chainTree n i)) :
    ∀ (k i : Nat), i + k = n → ∀ out, Expands cs (tagFile (chainName i) (chainTree n i)) out → out.length = 2 ^ k := by
  intro k
  induction k with
  | zero =>
    intro i hi out h
    have e : tagFile (chainName i) (chainTree n i) = [⟨c!"x", 1, [], chainName i, none, none, none, false⟩] := by
      unfold chainTree
      rw [if_neg (by omega)]; rfl
    rw [e] at h
    rcases Expands.inv h with ⟨-, b, o2, h2, rfl⟩ | ⟨h1, -⟩
    · cases h2; rfl
    · exact absurd rfl h1.2
  | succ k ih =>
    intro i hi out h
    have e : tagFile (chainName i) (chainTree n i) =
        [⟨c!"include", 1, [chainName (i + 1)], chainName i, some [((i + 1 : Nat) : Int)], none, none, false⟩,
         ⟨c!"include", 1, [chainName (i + 1)], chainName i, some [((i + 1 : Nat) : Int)], none, none, false⟩] := by
      unfold chainTree
      rw [if_pos (by omega)]; rfl
    rw [e] at h
    have one : ∀ o1, Inlines cs [((i + 1 : Nat) : Int)] o1 → o1.length = 2 ^ k := by
      intro o1 h1
      rcases Inlines.inv h1 with ⟨k1, -⟩ | ⟨j, is, c, a, b, k1, h2, h3, h4, rfl⟩
      · cases k1
      · rw [List.cons.injEq] at k1
        obtain ⟨k1, rfl⟩ := k1
        obtain rfl : j = i + 1 := by omega
        obtain ⟨c', h5, h6⟩ := hcs (i + 1) (by omega)
        rw [h2] at h5
        cases h5
        rw [h6] at h3
        rcases Inlines.inv h4 with ⟨-, rfl⟩ | ⟨_, _, _, _, _, h, -⟩
        · rw [List.append_nil]
          exact ih (i + 1) (by omega) a h3
        · cases h
    have inc : IsInclude ⟨c!"include", 1, [chainName (i + 1)], chainName i, some [((i + 1 : Nat) : Int)], none, none, false⟩ := ⟨rfl, by simp⟩
    rcases Expands.inv h with ⟨h1, -⟩ | ⟨-, o1, o2, h2, h3, rfl⟩
    · exact absurd inc h1
    · rcases Expands.inv h3 with ⟨h1, -⟩ | ⟨-, o3, o4, h4, h5, rfl⟩
      · exact absurd inc h1
      · cases h5
        rw [List.length_append, List.append_nil, one _ h2, one _ h4, Nat.pow_succ]
        omega

/-- C72 with CombineConfigs is false: for every `n` there are `n + 1` files of at most `2 n + 20` characters each whose combination has `2 ^ n` directives. -/
theorem C72_false_combined (n : Nat) : ∃ (env : Env) (o : ParseOptions) (filename : Str) (files : List Str) (p : Payload) (c : Config),
    files.length = n + 1 ∧ (∀ k f, (∃ d, env.openFile k f = .ok d) ↔ f ∈ files) ∧ (∀ k f d, env.openFile k f = .ok d → d.runes.length ≤ 2 * n + 20) ∧
    Parse env (n + 2) filename o = .ok p ∧ p.status = c!"ok" ∧ p.config = [c] ∧ c.parsed.length = 2 ^ n := by
  have hplain := C71_complete (chain_followed n) (fuel := n + 2) (by simp [chainFiles]) (fun f hf => by
    obtain ⟨i, hi, rfl⟩ := chain_get hf
    exact Or.inl (Nat.zero_le _)) (chain_project n)
  obtain ⟨q, h1, h2⟩ := Parse_combines (chain_followed n).perm (o := chainOpts) hplain
  have hcs : ∀ i ≤ n, (okPayload ((chainFiles n).map fun f => (f.name, f.tree))).tagFiles.config[i]? =
      some { file := chainName i, status := c!"ok", parsed := tagFile (chainName i) (chainTree n i) } := by
    intro i hi
    simp only [Payload.tagFiles, okPayload, chainFiles, List.map_map, List.getElem?_map, List.getElem?_range (show i < n + 1 by omega)]
    rfl
  obtain ⟨rest, hrest⟩ : ∃ rest, (okPayload ((chainFiles n).map fun f => (f.name, f.tree))).tagFiles.config =
      { file := chainName 0, status := c!"ok", parsed := tagFile (chainName 0) (chainTree n 0) } :: rest := by
    have := hcs 0 (Nat.zero_le n)
    cases hc : (okPayload ((chainFiles n).map fun f => (f.name, f.tree))).tagFiles.config with
    | nil => rw [hc] at this; cases this
    | cons c cs => rw [hc] at this; cases this; exact ⟨cs, rfl⟩
  obtain ⟨out, st, h3, -, h4⟩ := (C35_combined_iff _ q _ _ hrest).mp ⟨_, h2⟩
  have hout := chain_expand (fun i hi => ⟨_, hcs i hi, rfl⟩) n 0 (by omega) out h3
  refine ⟨chainEnv n, { chainOpts with combineConfigs := true }, chainName 0, (List.range (n + 1)).map chainName, q, _, by simp, ?_, ?_, h1, ?_,
    by rw [h4], hout⟩
  · intro k f
    constructor
    · rintro ⟨d, hd⟩
      simp only [chainEnv, chainData] at hd
      split at hd
      · rename_i hs
        split at hs
        · rename_i hf
          rw [hf.1]
          exact List.mem_map.mpr ⟨_, List.mem_range.mpr (by omega), rfl⟩
        · cases hs
      · cases hd
    · intro hf
      obtain ⟨i, hi, rfl⟩ := List.mem_map.mp hf
      have := List.mem_range.mp hi
      exact ⟨_, (chain_readOnly n).isFile k _ _ (chainData_name (by omega))⟩
  · intro k f d hd
    simp only [chainEnv, chainData] at hd
    split at hd
    · rename_i hs
      split at hs
      · cases hs; cases hd
        show (chainText n _).length ≤ _
        unfold chainText
        split
        · simp only [List.length_append, chainName_length, List.length_cons, List.length_nil]; omega
        · simp
      · cases hs
    · cases hd
  · rw [h4]; rfl

/-- Four files, eight directives. -/
example : ∃ c, (∃ p, Parse (chainEnv 3) 5 c!"/" { chainOpts with combineConfigs := true } = .ok p ∧ p.config = [c]) ∧ c.parsed.length = 8 ∧
    sizeList c.parsed = 16 := by
  refine ⟨{ file := c!"/", status := c!"ok", parsed := List.replicate 8 ⟨c!"x", 1, [], c!"/aaa", none, none, none, false⟩ }, ⟨{ status := c!"ok", config := [_] }, ?_, rfl⟩, rfl, rfl⟩
  decide +kernel

end Verif
