import Verif.Proofs.ParseChan
import Verif.Props.Concat
/-!
# C76: `Parse` with the goroutines of its lexers
-/
namespace Verif
open Spec

/-- C76 (result).  Under every schedule and for every capacity of the channels, what `Parse` returns is what the sequential model says. -/
theorem C76_result {env : Env} {o : ParseOptions} {filename : Str} {cap n : Nat} {s : Sys} {r : Res Payload}
    (h : SysRun env o (env.dir filename) cap n (.init filename) s) (hr : s.main = .returned r) :
    ∃ N, ∀ fuel, N ≤ fuel → Parse env fuel filename o = r := by
  have key : ∀ {n s}, LiveRun env o (env.dir filename) cap n (.init filename) s → s.main = .returned r → ∃ N, ∀ fuel, N ≤ fuel → Parse env fuel filename o = r := by
    intro n s h hr
    obtain ⟨-, hi⟩ := Inv.run h
    rw [hr] at hi
    obtain ⟨k, hi⟩ := hi
    refine ⟨k, fun fuel hf => ?_⟩
    obtain ⟨d, rfl⟩ := Nat.exists_eq_add_of_le hf
    rw [Parse_topRes, Nat.add_comm]
    exact (hi d).1
  rcases h.cases with h | ⟨m, s1, q, h1, h2, h3, -⟩
  · exact key h hr
  · rw [hr] at h3; cases h3
    exact key h1 h2

/-- The same for a `Parse` that ends. -/
theorem C76_same {env : Env} {o : ParseOptions} {filename : Str} {fuel cap n : Nat} {s : Sys} {r : Res Payload} (hf : Parse env fuel filename o ≠ .fuel)
    (h : SysRun env o (env.dir filename) cap n (.init filename) s) (hr : s.main = .returned r) : r = Parse env fuel filename o := by
  obtain ⟨N, hN⟩ := C76_result h hr
  rw [← hN (fuel + N) (by omega), Parse_more hf]

/-- C76 (no deadlock).  As long as `Parse` has not returned some step is possible. -/
theorem C76_progress {env : Env} {o : ParseOptions} {filename : Str} {cap n : Nat} {s : Sys}
    (h : SysRun env o (env.dir filename) cap n (.init filename) s) (hr : ∀ r, s.main ≠ .returned r) : ∃ s', LiveStep env o (env.dir filename) cap s s' := by
  rcases h.cases with h | ⟨m, s1, q, -, -, h3, -⟩
  · obtain ⟨hw, hi⟩ := Inv.run h
    obtain ⟨main, gs⟩ := s
    cases main with
    | next ps configs =>
      cases hinc : ps.includes with
      | nil => exact ⟨_, .finish ps configs gs hinc⟩
      | cons incl rest =>
        cases ho : env.openFile ps.opens incl.path with
        | error e => exact ⟨_, .openFail ps configs incl rest e gs hinc ho⟩
        | ok data => exact ⟨_, .openFile ps configs incl rest data gs hinc ho⟩
    | file path configs st =>
      obtain ⟨k, g, gs', ps, ctx, toks, ps0, r, u, ps', hg, hi⟩ := hi
      simp only at hg
      subst hg
      by_cases hd : ∃ r ps, st = .done r ps
      · obtain ⟨r, ps, rfl⟩ := hd
        exact ⟨_, .fileDone path configs r ps _⟩
      · have hd : ∀ r ps, st ≠ .done r ps := fun r ps e => hd ⟨r, ps, e⟩
        obtain ⟨rest, pending, buf, closed⟩ := g
        cases buf with
        | cons t buf => exact ⟨_, .receive path configs st _ (some t) _ gs' hd (.buffered t rest pending buf closed)⟩
        | nil =>
          cases closed with
          | true => exact ⟨_, .receive path configs st _ none _ gs' hd (.closed rest pending)⟩
          | false =>
            cases pending with
            | some t => exact ⟨_, .receive path configs st _ (some t) _ gs' hd (.handoff t rest)⟩
            | none =>
              cases rest with
              | nil => exact ⟨_, .lexer _ [] _ _ gs' (.close [])⟩
              | cons t rest => exact ⟨_, .lexer _ [] _ _ gs' (.compute t rest [])⟩
    | returned r => exact absurd rfl (hr r)
  · exact absurd h3 (hr q)

/-- C76 (termination).  If the sequential `Parse` ends, there is a bound on the number of steps under all schedules: `Parse` returns, and the lexers then end or are
blocked. -/
theorem C76_bounded {env : Env} {o : ParseOptions} {filename : Str} {fuel : Nat} (hf : Parse env fuel filename o ≠ .fuel) :
    ∃ B, ∀ cap n s, LiveRun env o (env.dir filename) cap n (.init filename) s → n ≤ B := by
  refine ⟨filesPot env o (env.dir filename) fuel (initPS filename) [], fun cap n s h => ?_⟩
  rw [Parse_topRes] at hf
  have he := fun d => filesPot_enough env o (env.dir filename) d fuel (initPS filename) [] (topRes_fuel hf)
  obtain ⟨-, hi⟩ := Inv.run h
  obtain ⟨main, gs⟩ := s
  cases main with
  | next ps configs =>
    obtain ⟨k, hi⟩ := hi
    have := hi.steps fuel
    rw [he] at this
    omega
  | file path configs st =>
    obtain ⟨k, g, gs', ps, ctx, toks, ps0, r, u, ps', hg, hi⟩ := hi
    have := hi.steps fuel
    rw [show fuel + 1 + k = fuel + (k + 1) by omega, he] at this
    omega
  | returned q =>
    obtain ⟨k, hi⟩ := hi
    have := (hi fuel).2.2
    rw [he] at this
    omega

/-- A goroutine that waits for room in a channel that nobody reads: `Parse` has returned. -/
structure Blocked (cap : Nat) (s : Sys) (i : Nat) : Prop where
  returned : ∃ r, s.main = .returned r
  waits : ∃ g t, s.lexers[i]? = some g ∧ g.pending = some t ∧ g.buf.length = cap ∧ g.closed = false

/-- A blocked goroutine stays blocked, whatever happens. -/
theorem C76_blocked {env : Env} {o : ParseOptions} {configDir : Str} {cap n i : Nat} {s s' : Sys} (h : Blocked cap s i)
    (hr : SysRun env o configDir cap n s s') : Blocked cap s' i := by
  induction hr with
  | refl => exact h
  | tail _ hs ih =>
    have h := ih h
    obtain ⟨⟨r, hr⟩, g0, t, h1, h2, h3, h4⟩ := h
    have other : ∀ {pre post : List LexerG} {g g' : LexerG}, (pre ++ g :: post)[i]? = some g0 → i ≠ pre.length → (pre ++ g' :: post)[i]? = some g0 := by
      intro pre post g g' h hne
      rw [List.getElem?_append] at h ⊢
      split
      · rename_i hl; rw [if_pos hl] at h; exact h
      · rename_i hl
        rw [if_neg hl] at h
        obtain ⟨j, hj⟩ : ∃ j, i - pre.length = j + 1 := ⟨i - pre.length - 1, by omega⟩
        rw [hj] at h ⊢
        exact h
    cases hs with
    | cut q pre g post rest hrest =>
      refine ⟨⟨q, rfl⟩, ?_⟩
      by_cases hi : i = pre.length
      · subst hi
        simp at h1
        subst h1
        exact ⟨{ g with rest := rest }, t, by simp, h2, h3, h4⟩
      · exact ⟨g0, t, other h1 hi, h2, h3, h4⟩
    | live hs =>
      cases hs with
      | lexer m pre g g' post hl =>
        refine ⟨⟨r, hr⟩, ?_⟩
        by_cases hi : i = pre.length
        · subst hi
          simp at h1
          subst h1
          cases hl with
          | compute => cases h2
          | send t rest buf hlt => simp only at h3; omega
          | close => cases h2
        · exact ⟨g0, t, other h1 hi, h2, h3, h4⟩
      | openFail => cases hr
      | openFile => cases hr
      | finish => cases hr
      | receive => cases hr
      | fileDone => cases hr

/-- When nothing goes on any more (and reading the files was not disturbed by closing them), a lexer has ended if and only if the tokens that the parser did not read
fit into its channel; otherwise it is blocked. -/
theorem C76_end {env : Env} {o : ParseOptions} {filename : Str} {cap n : Nat} {s : Sys} (h : LiveRun env o (env.dir filename) cap n (.init filename) s)
    (hmax : ∀ s', ¬ LiveStep env o (env.dir filename) cap s s') :
    (∃ r, s.main = .returned r) ∧
    ∀ i g, s.lexers[i]? = some g → (g.closed = true ∧ g.unread.length ≤ cap) ∨ (Blocked cap s i ∧ cap < g.unread.length) := by
  have hret : ∃ r, s.main = .returned r := by
    by_cases hr : ∃ r, s.main = .returned r
    · exact hr
    · obtain ⟨s', h'⟩ := C76_progress h.sys (fun r e => hr ⟨r, e⟩)
      exact absurd h' (hmax s')
  refine ⟨hret, fun i g hg => ?_⟩
  have hw := (Inv.run h).1 g (List.mem_of_getElem? hg)
  have hstep : ∀ g', ¬ LexerStep cap g g' := by
    intro g' hl
    obtain ⟨main, gs⟩ := s
    simp only at hg
    obtain ⟨hlt, he⟩ := List.getElem?_eq_some_iff.mp hg
    have e : gs = gs.take i ++ g :: gs.drop (i + 1) := by
      rw [← he, List.cons_getElem_drop_succ, List.take_append_drop]
    have := hmax ⟨main, gs.take i ++ g' :: gs.drop (i + 1)⟩
    apply this
    conv => arg 5; rw [e]
    exact .lexer _ _ _ _ _ hl
  obtain ⟨rest, pending, buf, closed⟩ := g
  cases closed with
  | true =>
    obtain ⟨h1, h2⟩ := hw.ended rfl
    simp only at h1 h2
    subst h1 h2
    exact Or.inl ⟨rfl, by simpa [LexerG.unread] using hw.room⟩
  | false =>
    cases pending with
    | none =>
      cases rest with
      | nil => exact absurd (.close buf) (hstep _)
      | cons t rest => exact absurd (.compute t rest buf) (hstep _)
    | some t =>
      by_cases hl : buf.length < cap
      · exact absurd (.send t rest buf hl) (hstep _)
      · have hroom := hw.room
        simp only at hroom
        exact Or.inr ⟨⟨hret, _, t, hg, rfl, by simp only; omega, rfl⟩, by simp [LexerG.unread]; omega⟩

/-- Every run can be continued to its end. -/
theorem C76_ends {env : Env} {o : ParseOptions} {filename : Str} {fuel : Nat} (hf : Parse env fuel filename o ≠ .fuel) {cap n : Nat} {s : Sys}
    (h : LiveRun env o (env.dir filename) cap n (.init filename) s) :
    ∃ m s', LiveRun env o (env.dir filename) cap m s s' ∧ ∀ s'', ¬ LiveStep env o (env.dir filename) cap s' s'' := by
  obtain ⟨B, hB⟩ := C76_bounded hf
  generalize hd : B - n = d
  induction d generalizing n s with
  | zero =>
    refine ⟨0, s, .refl _, fun s'' hs => ?_⟩
    have h1 := hB _ _ _ (.tail h hs)
    omega
  | succ d ih =>
    by_cases hs : ∃ s'', LiveStep env o (env.dir filename) cap s s''
    · obtain ⟨s'', hs⟩ := hs
      obtain ⟨m, s', h1, h2⟩ := ih (.tail h hs) (by omega)
      exact ⟨1 + m, s', LiveRun.trans (.tail (.refl _) hs) h1, h2⟩
    · exact ⟨0, s, .refl _, fun s'' h => hs ⟨s'', h⟩⟩

/-- C76 (leaks).  A goroutine can be left behind, blocked forever, if and only if the parser leaves more tokens of some file unread than the channel holds. -/
theorem C76_leak_iff {env : Env} {o : ParseOptions} {filename : Str} {fuel : Nat} (hf : Parse env fuel filename o ≠ .fuel) (cap : Nat) :
    (∃ n s i, LiveRun env o (env.dir filename) cap n (.init filename) s ∧ Blocked cap s i) ↔
    ∃ u ∈ unreadFiles env o (env.dir filename) fuel (initPS filename) [], cap < u.length := by
  have hf' := hf
  rw [Parse_topRes] at hf'
  have key : ∀ {n s r}, LiveRun env o (env.dir filename) cap n (.init filename) s → s.main = .returned r →
      unreadFiles env o (env.dir filename) fuel (initPS filename) [] = (s.lexers.map LexerG.unread).reverse := by
    intro n s r h hr
    obtain ⟨-, hi⟩ := Inv.run h
    rw [hr] at hi
    obtain ⟨k, hi⟩ := hi
    rw [← (hi fuel).2.1]
    exact (unreadFiles_enough env o (env.dir filename) k fuel (initPS filename) [] (topRes_fuel hf')).symm
  constructor
  · rintro ⟨n, s, i, h, ⟨r, hr⟩, g, t, h1, h2, h3, h4⟩
    rw [key h hr]
    refine ⟨g.unread, ?_, ?_⟩
    · simp only [List.mem_reverse, List.mem_map]
      exact ⟨g, List.mem_of_getElem? h1, rfl⟩
    · simp [LexerG.unread, h2]; omega
  · rintro ⟨u, hu, hl⟩
    obtain ⟨m, s, h, hmax⟩ := C76_ends hf (LiveRun.refl (cap := cap) (.init filename))
    obtain ⟨⟨r, hr⟩, hend⟩ := C76_end h hmax
    rw [key h hr] at hu
    simp only [List.mem_reverse, List.mem_map] at hu
    obtain ⟨g, hg, rfl⟩ := hu
    obtain ⟨i, hi⟩ := List.mem_iff_getElem?.mp hg
    rcases hend i g hi with ⟨-, h⟩ | ⟨hb, -⟩
    · omega
    · exact ⟨m, s, i, h, hb⟩

/-- C76 (nothing left behind).  If the payload has no errors and the files are statements, then when `Parse` has returned every lexer has sent all its tokens and
they were received; all it can do is close its channel. -/
theorem C76_clean {env : Env} {o : ParseOptions} {filename : Str} {fuel cap n : Nat} {p : Payload} {s : Sys} {r : Res Payload}
    (hp : Parse env fuel filename o = .ok p) (he : p.errors = []) (hc : o.combineConfigs = false)
    (hform : ∀ n path data, env.openFile n path = .ok data → Formed o data)
    (h : SysRun env o (env.dir filename) cap n (.init filename) s) (hr : s.main = .returned r) :
    r = .ok p ∧ ∀ g ∈ s.lexers, g.rest = [] ∧ g.pending = none ∧ g.buf = [] := by
  have hne : Parse env fuel filename o ≠ .fuel := by rw [hp]; simp
  have hne' := hne
  rw [Parse_topRes] at hne'
  obtain ⟨cs, ps', hok, -, hcfg, -⟩ := Parse_ok hp
  have hpe : ps'.payErrors = [] := by rw [hcfg hc] at he; exact he
  have hall := hok.unread_nil hc hform (by rw [hpe]; rfl) fuel []
  have key : ∀ {n s r}, LiveRun env o (env.dir filename) cap n (.init filename) s → s.main = .returned r → r = .ok p ∧ ∀ g ∈ s.lexers, g.unread = [] := by
    intro n s r h hr
    obtain ⟨-, hi⟩ := Inv.run h
    rw [hr] at hi
    obtain ⟨k, hi⟩ := hi
    refine ⟨?_, fun g hg => hall _ ?_⟩
    · obtain ⟨N, hN⟩ := C76_result h.sys hr
      have h1 := hN (fuel + N) (by omega)
      rw [← h1, Parse_more hne, hp]
    · have := (hi fuel).2.1
      rw [unreadFiles_enough env o (env.dir filename) k fuel (initPS filename) [] (topRes_fuel hne')] at this
      rw [this]
      simp only [List.mem_reverse, List.mem_map]
      exact ⟨g, hg, rfl⟩
  have split : ∀ g : LexerG, g.unread = [] → g.rest = [] ∧ g.pending = none ∧ g.buf = [] := by
    rintro ⟨rest, pending, buf, closed⟩ h
    simp only [LexerG.unread, List.append_eq_nil_iff] at h
    refine ⟨h.2, ?_, h.1.1⟩
    cases pending with
    | none => rfl
    | some t => simp at h
  rcases h.cases with h | ⟨m, s1, q, h1, h2, h3, h4⟩
  · exact ⟨(key h hr).1, fun g hg => split g ((key h hr).2 g hg)⟩
  · rw [hr] at h3; cases h3
    exact ⟨(key h1 h2).1, fun g hg => split g (h4 (key h1 h2).2 g hg)⟩

/-! ### Where goroutines are left behind -/

/-- The same statement on `n` lines. -/
def manyLines : Nat → Str
  | 0 => []
  | n + 1 => c!"user;\n" ++ manyLines n

theorem manyLines_lex (n : Nat) : (∀ t ∈ lex (manyLines n), t.error = none) ∧ Shape (lex (manyLines n)) ∧ (lex (manyLines n)).length = 2 * n := by
  induction n with
  | zero => exact ⟨by decide, by rw [show lex (manyLines 0) = [] by decide]; exact .nil, by decide⟩
  | succ n ih =>
    obtain ⟨h1, h2, h3⟩ := ih
    have hl : lex c!"user;\n" = [⟨c!"user", 1, false, none⟩, ⟨c!";", 1, false, none⟩] := by decide +kernel
    have hs : Shape (lex c!"user;\n") := by
      rw [hl]; exact .simple (mid := []) (exWord (by decide)) .nil ⟨rfl, rfl⟩ .nil
    have e : lex (manyLines (n + 1)) = lex c!"user;\n" ++ (lex (manyLines n)).map (laterTok 1) :=
      C75_tokens (Or.inr ⟨c!"user;", rfl⟩) (by rw [hl]; decide) hs h1 h2.starts
    refine ⟨?_, ?_, ?_⟩
    · rw [e]
      intro t ht
      rcases List.mem_append.mp ht with ht | ht
      · rw [hl] at ht
        simp only [List.mem_cons, List.not_mem_nil, or_false] at ht
        rcases ht with rfl | rfl <;> rfl
      · obtain ⟨t', ht', rfl⟩ := List.mem_map.mp ht
        exact h1 t' ht'
    · rw [e, hl]
      exact .simple (mid := []) (exWord (by decide)) .nil ⟨rfl, rfl⟩ (h2.later 1)
    · rw [e, hl]; simp [h3]; omega

theorem manyLines_prefix {a : Str} {toks : List Tok} (hw : WholeLines a) (hl : lex a = toks) (he : ∀ t ∈ toks, t.error = none) (hs : Shape toks) (n : Nat) :
    ∃ u, lex (a ++ manyLines n) = toks ++ u ∧ u.length = 2 * n := by
  obtain ⟨h1, h2, h3⟩ := manyLines_lex n
  subst hl
  exact ⟨_, C75_tokens hw he hs h1 h2.starts, by simp [h3]⟩

/-- With StopParsingOnError the lexer of a file with an error is left behind, if the rest of the file has more tokens than the channel holds: for every capacity there is a
file for which `Parse` returns an error and a goroutine is blocked forever. -/
theorem C76_false_stop (cap : Nat) : ∃ env o e n s i, o.stopParsingOnError = true ∧ Parse env 2 c!"/a" o = .err e ∧
    SysRun env o (env.dir c!"/a") cap n (.init c!"/a") s ∧ s.main = .returned (.err e) ∧ Blocked cap s i := by
  obtain ⟨u, hu, hlen⟩ := manyLines_prefix (a := c!"user;\n") (toks := [⟨c!"user", 1, false, none⟩, ⟨c!";", 1, false, none⟩])
    (Or.inr ⟨c!"user;", rfl⟩) (by decide +kernel) (by decide) (.simple (mid := []) (exWord (by decide)) .nil ⟨rfl, rfl⟩ .nil) (cap + 1)
  let o : ParseOptions := { exOpts with stopParsingOnError := true }
  let env := exEnv [(c!"/a", c!"user;\n" ++ manyLines (cap + 1))]
  have htoks : fileToks o { runes := c!"user;\n" ++ manyLines (cap + 1) } = ⟨c!"user", 1, false, none⟩ :: ⟨c!";", 1, false, none⟩ :: u := by
    rw [fileToks_lex rfl, hu]; rfl
  have hop : Opened env o (env.dir c!"/a") (initPS c!"/a") c!"/a" ⟨[], 0, 0⟩ (⟨c!"user", 1, false, none⟩ :: ⟨c!";", 1, false, none⟩ :: u)
      (startFile (initPS c!"/a") []) := ⟨[], _, rfl, rfl, htoks.symm, rfl⟩
  obtain ⟨err, herr⟩ : ∃ err, analyze c!"/a" (baseStmt o c!"/a" ⟨c!"user", 1, false, none⟩ []) c!";" [] o = some err := by
    rw [← Option.isSome_iff_exists]; decide +kernel
  have hrun : RunFail env o (env.dir c!"/a") c!"/a" ⟨[], 0, 0⟩ (⟨c!"user", 1, false, none⟩ :: ⟨c!";", 1, false, none⟩ :: u)
      (startFile (initPS c!"/a") []) (some (.parse err)) u (startFile (initPS c!"/a") []) :=
    .fail _ _ _ _ _ _ _ (StepR.rejectFail [] [] ⟨c!";", 1, false, none⟩ u err ⟨rfl, rfl, rfl, rfl⟩ rfl rfl herr rfl).step_eq
  have hp := hrun.parse_eq _ [] (Nat.lt_succ_self _)
  have hres : Parse env 2 c!"/a" o = .err (.parse err) := by
    rw [Parse_topRes]
    exact parseFiles_file hop (configs := []) hp 1
  have hne : Parse env 2 c!"/a" o ≠ .fuel := by rw [hres]; simp
  have hun : unreadFiles env o (env.dir c!"/a") 2 (initPS c!"/a") [] = [u] := unreadFiles_file hop (configs := []) hp 1
  obtain ⟨n, s, i, h1, h2⟩ := (C76_leak_iff hne cap).mpr ⟨u, by rw [hun]; simp, by omega⟩
  obtain ⟨r, hr⟩ := h2.returned
  have := C76_same hne h1.sys hr
  rw [hres] at this
  subst this
  exact ⟨env, o, _, n, s, i, rfl, hres, h1.sys, hr, h2⟩

/-- Without StopParsingOnError too: after a block that is rejected at the top of the file the parser stops reading (C74). -/
theorem C76_false_block (cap : Nat) : ∃ env o p n s i, o.stopParsingOnError = false ∧ Parse env 2 c!"/a" o = .ok p ∧
    SysRun env o (env.dir c!"/a") cap n (.init c!"/a") s ∧ s.main = .returned (.ok p) ∧ Blocked cap s i := by
  obtain ⟨u, hu, hlen⟩ := manyLines_prefix (a := c!"server{}\n") (toks := [⟨c!"server", 1, false, none⟩, ⟨c!"{", 1, false, none⟩, ⟨c!"}", 1, false, none⟩])
    (Or.inr ⟨c!"server{}", rfl⟩) (by decide +kernel) (by decide)
    (.block (mid := []) (inner := []) (toks := []) (exWord (by decide)) .nil ⟨rfl, rfl⟩ .nil ⟨rfl, rfl⟩ .nil) (cap + 1)
  let o : ParseOptions := exOpts
  let env := exEnv [(c!"/a", c!"server{}\n" ++ manyLines (cap + 1))]
  have htoks : fileToks o { runes := c!"server{}\n" ++ manyLines (cap + 1) } =
      ⟨c!"server", 1, false, none⟩ :: ⟨c!"{", 1, false, none⟩ :: ⟨c!"}", 1, false, none⟩ :: u := by
    rw [fileToks_lex rfl, hu]; rfl
  have hop : Opened env o (env.dir c!"/a") (initPS c!"/a") c!"/a" ⟨[], 0, 0⟩
      (⟨c!"server", 1, false, none⟩ :: ⟨c!"{", 1, false, none⟩ :: ⟨c!"}", 1, false, none⟩ :: u) (startFile (initPS c!"/a") []) :=
    ⟨[], _, rfl, rfl, htoks.symm, rfl⟩
  obtain ⟨err, herr, hsuf⟩ : ∃ err, analyze c!"/a" (baseStmt o c!"/a" ⟨c!"server", 1, false, none⟩ []) c!"{" [] o = some err ∧
      hasSuffix err.what notTerminated = false := by
    have : ((analyze c!"/a" (baseStmt o c!"/a" ⟨c!"server", 1, false, none⟩ []) c!"{" [] o).map fun e => hasSuffix e.what notTerminated) = some false := by
      decide +kernel
    cases h : analyze c!"/a" (baseStmt o c!"/a" ⟨c!"server", 1, false, none⟩ []) c!"{" [] o with
    | none => rw [h] at this; cases this
    | some err => rw [h] at this; exact ⟨err, rfl, by simpa using this⟩
  have hrun : RunOk env o (env.dir c!"/a") c!"/a" ⟨[], 0, 0⟩ (⟨c!"server", 1, false, none⟩ :: ⟨c!"{", 1, false, none⟩ :: ⟨c!"}", 1, false, none⟩ :: u)
      (startFile (initPS c!"/a") []) ([] ++ []) u (handleError o c!"/a" (startFile (initPS c!"/a") []) (.parse err)) :=
    .next _ _ _ _ _ _ _ _ _ _
      (StepR.reject [] [] ⟨c!"{", 1, false, none⟩ (⟨c!"}", 1, false, none⟩ :: u) err ⟨rfl, rfl, rfl, rfl⟩ rfl rfl herr rfl hsuf).step_eq
      (.stop _ _ _ _ _ _ (StepR.close rfl rfl).step_eq)
  have hp := hrun.parse_eq _ [] (Nat.lt_succ_self _)
  obtain ⟨p, hres⟩ : ∃ p, Parse env 2 c!"/a" o = .ok p := by
    refine ⟨?_, ?_⟩
    rotate_left
    · rw [Parse_topRes]
      have := parseFiles_file hop (configs := []) hp 1
      simp only [afterFile] at this
      rw [this]
      rfl
  have hne : Parse env 2 c!"/a" o ≠ .fuel := by rw [hres]; simp
  have hun : unreadFiles env o (env.dir c!"/a") 2 (initPS c!"/a") [] = [u] := by
    rw [unreadFiles_file hop (configs := []) hp 1]; rfl
  obtain ⟨n, s, i, h1, h2⟩ := (C76_leak_iff hne cap).mpr ⟨u, by rw [hun]; simp, by omega⟩
  obtain ⟨r, hr⟩ := h2.returned
  have := C76_same hne h1.sys hr
  rw [hres] at this
  subst this
  exact ⟨env, o, _, n, s, i, rfl, hres, h1.sys, hr, h2⟩

/-! ### Examples -/

/-- There are complete runs with the expected payload, here with unbuffered channels and two files. -/
example : ∃ n s, SysRun (exEnv [(c!"/a", c!"include /b;user a;"), (c!"/b", c!"http{\nserver{}}")]) exOpts c!"/e" 0 n (.init c!"/a") s ∧
    s.main = .returned (.ok (okPayload [(c!"/a", [incl 1 c!"/b" [1], dir c!"user" 1 [c!"a"]]), (c!"/b", [blk c!"http" 1 [] [blk c!"server" 2 [] []]])])) ∧
    s.lexers.length = 2 := by
  have hp : Parse (exEnv [(c!"/a", c!"include /b;user a;"), (c!"/b", c!"http{\nserver{}}")]) 3 c!"/a" exOpts =
    .ok (okPayload [(c!"/a", [incl 1 c!"/b" [1], dir c!"user" 1 [c!"a"]]), (c!"/b", [blk c!"http" 1 [] [blk c!"server" 2 [] []]])]) := by decide +kernel
  have hne : Parse (exEnv [(c!"/a", c!"include /b;user a;"), (c!"/b", c!"http{\nserver{}}")]) 3 c!"/a" exOpts ≠ .fuel := by rw [hp]; simp
  obtain ⟨n, s, h, hmax⟩ := C76_ends hne (LiveRun.refl (cap := 0) (.init c!"/a"))
  obtain ⟨⟨r, hr⟩, -⟩ := C76_end h hmax
  refine ⟨n, s, h.sys, by rw [hr, C76_same hne h.sys hr, hp], ?_⟩
  obtain ⟨-, hi⟩ := Inv.run h
  rw [hr] at hi
  obtain ⟨k, hi⟩ := hi
  have h1 := (hi 3).2.1
  rw [unreadFiles_enough _ _ _ k 3 _ _ (topRes_fuel (by rw [← Parse_topRes]; exact hne))] at h1
  have h2 : (unreadFiles (exEnv [(c!"/a", c!"include /b;user a;"), (c!"/b", c!"http{\nserver{}}")]) exOpts c!"/e" 3 (initPS c!"/a") []) = [[], []] := by
    decide +kernel
  have h3 := congrArg List.length (h1.symm.trans h2)
  simpa using h3

/-- In every run on this file, with every capacity, the lexer has nothing left when `Parse` has returned. -/
example (cap n : Nat) (s : Sys) (r : Res Payload) (h : SysRun (exEnv [(c!"/a", c!"user a;")]) exOpts c!"/e" cap n (.init c!"/a") s) (hr : s.main = .returned r) :
    r = .ok (okPayload [(c!"/a", [dir c!"user" 1 [c!"a"]])]) ∧ ∀ g ∈ s.lexers, g.rest = [] ∧ g.pending = none ∧ g.buf = [] := by
  refine C76_clean (fuel := 2) (by decide +kernel) rfl rfl ?_ h hr
  intro n path data hd
  have hd' : data = { runes := c!"user a;" } := by
    simp only [exEnv, List.lookup] at hd
    cases hp : (path == c!"/a") <;> rw [hp] at hd <;> simp at hd
    exact hd.symm
  subst hd'
  have hl : fileToks exOpts { runes := c!"user a;" } = [⟨c!"user", 1, false, none⟩, ⟨c!"a", 1, false, none⟩, ⟨c!";", 1, false, none⟩] := by decide +kernel
  refine Or.inl ?_
  rw [hl]
  refine ⟨by decide, ?_⟩
  exact .simple (mid := [⟨c!"a", 1, false, none⟩]) (exWord (by decide)) (.word (exWord (by decide)) .nil) ⟨rfl, rfl⟩ .nil

end Verif
