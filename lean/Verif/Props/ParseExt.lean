import Verif.Proofs.ParseExt
/-!
# C88: `Parse` with the goroutines of its lexers and of their external lexers
-/
namespace Verif
open Spec

variable {ρ : Type} {X : ρ → LAct ρ} {exts : Str → Option ρ} {env : Env} {o : ParseOptions} {filename : Str} {cap xcap : Nat}

/-- C88 (result).  Under every schedule and for all capacities of the channels, what `Parse` returns is what the sequential model says. -/
theorem C88_result (hi : Implements X exts (extLexersOf o.lexers)) {s : XSys ρ} {r : Res Payload}
    (h : XSysRun X exts env o (env.dir filename) cap xcap (.init ρ filename) s) (hr : s.main = .returned r) :
    ∃ N, ∀ fuel, N ≤ fuel → Parse env fuel filename o = r := by
  have key : ∀ {s}, XLiveRun X exts env o (env.dir filename) cap xcap (.init ρ filename) s → s.main = .returned r → ∃ N, ∀ fuel, N ≤ fuel → Parse env fuel filename o = r := by
    intro s h hr
    obtain ⟨zs, n, ha⟩ := h.appears hi
    exact C76_result ha.run.sys hr
  rcases h.cases with h | ⟨s1, q, h1, h2, h3⟩
  · exact key h hr
  · rw [hr] at h3; cases h3
    exact key h1 h2

/-- The same for a `Parse` that ends. -/
theorem C88_same (hi : Implements X exts (extLexersOf o.lexers)) {fuel : Nat} {s : XSys ρ} {r : Res Payload} (hf : Parse env fuel filename o ≠ .fuel)
    (h : XSysRun X exts env o (env.dir filename) cap xcap (.init ρ filename) s) (hr : s.main = .returned r) : r = Parse env fuel filename o := by
  obtain ⟨N, hN⟩ := C88_result hi h hr
  rw [← hN (fuel + N) (by omega), Parse_more hf]

/-- C88 (no deadlock).  As long as `Parse` has not returned some step is possible. -/
theorem C88_progress (hi : Implements X exts (extLexersOf o.lexers)) {s : XSys ρ}
    (h : XSysRun X exts env o (env.dir filename) cap xcap (.init ρ filename) s) (hr : ∀ r, s.main ≠ .returned r) :
    ∃ s', XLiveStep X exts env o (env.dir filename) cap xcap s s' := by
  rcases h.cases with h | ⟨s1, q, -, -, h3⟩
  · obtain ⟨zs, n, ha⟩ := h.appears hi
    obtain ⟨hw, hinv⟩ := Inv.run ha.run
    obtain ⟨main, gs⟩ := s
    cases main with
    | next ps configs =>
      cases hinc : ps.includes with
      | nil => exact ⟨_, .finish ps configs gs hinc⟩
      | cons incl rest =>
        cases ho : env.openFile ps.opens incl.path with
        | error e => exact ⟨_, .openFail ps configs incl rest e gs hinc ho⟩
        | ok data => exact ⟨_, .openFile ps configs incl rest data gs hinc ho⟩
    | file path configs st =>
      obtain ⟨k, g, gs', ps, ctx, toks, ps0, r, u, ps', hg, -⟩ := hinv
      obtain ⟨z, zs', rfl, -, -⟩ := List.map_eq_cons_iff.mp hg
      have hgs := ha.lexers
      simp only [List.map_cons] at hgs
      subst hgs
      by_cases hd : ∃ r ps, st = .done r ps
      · obtain ⟨r, ps, rfl⟩ := hd
        exact ⟨_, .fileDone path configs r ps _⟩
      · have hd : ∀ r ps, st ≠ .done r ps := fun r ps e => hd ⟨r, ps, e⟩
        have hz := ha.ok z (by simp)
        have step : ∀ {g'}, ExtStep (tkAct exts) X mailbox cap xcap z.g g' →
            ∃ s', XLiveStep X exts env o (env.dir filename) cap xcap ⟨.file path configs st, z.g :: zs'.map Ahead.g⟩ s' := by
          intro g' hs
          cases hrd : g'.rd with
          | none => exact ⟨_, .lexer _ [] _ _ _ hs hrd⟩
          | some t => exact ⟨_, .receive _ _ _ _ _ _ _ hd hs hrd⟩
        obtain ⟨g, toks, steps⟩ := z
        have hidle : g.rd = none := hz.idle
        obtain ⟨mm, x, xb, cs, l, b, r⟩ := g
        simp only at hidle
        subst hidle
        cases b with
        | cons t b => exact step (.recv _ _ _ _ _ _ _ _ rfl)
        | nil =>
          cases hc : mm.isClosed with
          | true =>
            cases mm with
            | closed => exact step (.recvClosed _ _ _ _ _ rfl)
            | run s => cases hc
            | drain k => cases hc
            | fwd t k => cases hc
          | false =>
            obtain ⟨g', hs⟩ := ext_progress (M := tkAct exts) (X := X) (R := mailbox) (cap := cap) (xcap := xcap) hz.inv hc (.inr (.inl ⟨rfl, rfl⟩))
            exact step hs
    | returned r => exact absurd rfl (hr r)
  · exact absurd h3 (hr q)

/-- C88 (termination).  If the sequential `Parse` ends, then no schedule goes on forever. -/
theorem C88_terminates (hi : Implements X exts (extLexersOf o.lexers)) {fuel : Nat} (hf : Parse env fuel filename o ≠ .fuel) :
    Acc (fun b a => XLiveStep X exts env o (env.dir filename) cap xcap a b) (.init ρ filename) := by
  obtain ⟨B, hB⟩ := C76_bounded hf
  have key : ∀ (d e n : Nat) (s : XSys ρ) (zs : List (Ahead ρ)), Appears X exts env o cap filename s zs n → B - n = d → hidden zs = e →
      Acc (fun b a => XLiveStep X exts env o (env.dir filename) cap xcap a b) s := by
    intro d
    induction d using Nat.strongRecOn with
    | _ d ihd =>
      intro e
      induction e using Nat.strongRecOn with
      | _ e ihe =>
        intro n s zs ha hd he
        refine ⟨_, fun s' hs => ?_⟩
        obtain ⟨zs', n', ha', hlt | ⟨rfl, hlt⟩⟩ := ha.step hi hs
        · have := hB _ _ _ ha'.run
          exact ihd (B - n') (by omega) _ n' s' zs' ha' rfl rfl
        · exact ihe (hidden zs') (by omega) n' s' zs' ha' hd rfl
  exact key _ _ 0 _ [] (.init filename) rfl rfl

/-- The same: there is no endless run. -/
theorem C88_no_endless (hi : Implements X exts (extLexersOf o.lexers)) {fuel : Nat} (hf : Parse env fuel filename o ≠ .fuel) :
    ¬ ∃ f : Nat → XSys ρ, f 0 = .init ρ filename ∧ ∀ i, XLiveStep X exts env o (env.dir filename) cap xcap (f i) (f (i + 1)) := by
  rintro ⟨f, h0, hf'⟩
  have key : ∀ s, Acc (fun b a => XLiveStep X exts env o (env.dir filename) cap xcap a b) s → ∀ i, f i = s → False := by
    intro s ha
    induction ha with
    | intro s _ ih => intro i hi; subst hi; exact ih _ (hf' i) (i + 1) rfl
  exact key _ (C88_terminates hi hf) 0 h0

/-- Every run can be continued to its end. -/
theorem C88_ends (hi : Implements X exts (extLexersOf o.lexers)) {fuel : Nat} (hf : Parse env fuel filename o ≠ .fuel) {s : XSys ρ}
    (h : XLiveRun X exts env o (env.dir filename) cap xcap (.init ρ filename) s) :
    ∃ s', XLiveRun X exts env o (env.dir filename) cap xcap s s' ∧ ∀ s'', ¬ XLiveStep X exts env o (env.dir filename) cap xcap s' s'' := by
  have key : ∀ s, Acc (fun b a => XLiveStep X exts env o (env.dir filename) cap xcap a b) s →
      ∃ s', XLiveRun X exts env o (env.dir filename) cap xcap s s' ∧ ∀ s'', ¬ XLiveStep X exts env o (env.dir filename) cap xcap s' s'' := by
    intro s ha
    induction ha with
    | intro s _ ih =>
      by_cases hs : ∃ s', XLiveStep X exts env o (env.dir filename) cap xcap s s'
      · obtain ⟨s', hs⟩ := hs
        obtain ⟨s'', h1, h2⟩ := ih s' hs
        exact ⟨s'', XLiveRun.trans (.tail (.refl _) hs) h1, h2⟩
      · exact ⟨s, .refl _, fun s' h => hs ⟨s', h⟩⟩
  have acc : ∀ {s}, XLiveRun X exts env o (env.dir filename) cap xcap (.init ρ filename) s →
      Acc (fun b a => XLiveStep X exts env o (env.dir filename) cap xcap a b) s := by
    intro s h
    induction h with
    | refl => exact C88_terminates hi hf
    | tail _ hs ih => exact ih.inv hs
  exact key s (acc h)

/-! ### What is left behind -/

/-- `tokenize` waits for room in a channel, with a token of its own or one of an external lexer. -/
structure Stuck (exts : Str → Option ρ) (cap : Nat) (g : FileG ρ) : Prop where
  waits : (∃ s t k, g.main = .run s ∧ tkAct exts s = .send t k) ∨ ∃ t k, g.main = .fwd t k
  full : g.buf.length = cap

/-- The external lexer waits until `tokenize` receives, and `tokenize` waits for room in its own channel. -/
structure ExtStuck (X : ρ → LAct ρ) (cap xcap : Nat) (g : FileG ρ) : Prop where
  tokenize : ∃ t k, g.main = .fwd t k
  full : g.buf.length = cap
  waits : ∃ e t k, g.ext = .live e ∧ X e = .send t k
  xfull : xcap ≤ g.xbuf.length

theorem stuck_step {g g' : FileG ρ} (h : Stuck exts cap g) (hs : ExtStep (tkAct exts) X mailbox cap xcap g g') (hr : g'.rd = none) : Stuck exts cap g' := by
  obtain ⟨hw, hf⟩ := h
  cases hs <;> simp_all [mailbox] <;> first
    | omega
    | exact ⟨by simp_all, by simp_all⟩

theorem extStuck_step {g g' : FileG ρ} (h : ExtStuck X cap xcap g) (hs : ExtStep (tkAct exts) X mailbox cap xcap g g') (hr : g'.rd = none) : ExtStuck X cap xcap g' := by
  obtain ⟨hm, hf, hw, hx⟩ := h
  cases hs <;> simp_all [mailbox] <;> omega

/-- After `Parse` has returned, what is true of a lexer and kept by its steps and by any change of its input stays true. -/
theorem kept_run {P : FileG ρ → Prop} {configDir : Str} (hstep : ∀ {g g'}, P g → ExtStep (tkAct exts) X mailbox cap xcap g g' → g'.rd = none → P g')
    (hcut : ∀ {g input}, P g → P { g with input := input }) {s s' : XSys ρ} {r : Res Payload} (hm : s.main = .returned r) {i : Nat} {g : FileG ρ}
    (hg : s.lexers[i]? = some g) (hp : P g) (hr : XSysRun X exts env o configDir cap xcap s s') : s'.main = .returned r ∧ ∃ g', s'.lexers[i]? = some g' ∧ P g' := by
  have upd : ∀ {pre post : List (FileG ρ)} {a b : FileG ρ}, (P a → P b) → (∃ g', (pre ++ a :: post)[i]? = some g' ∧ P g') →
      ∃ g', (pre ++ b :: post)[i]? = some g' ∧ P g' := by
    rintro pre post a b hab ⟨g0, h1, h2⟩
    by_cases hi : i = pre.length
    · subst hi
      simp at h1
      subst h1
      exact ⟨b, by simp, hab h2⟩
    · refine ⟨g0, ?_, h2⟩
      rw [List.getElem?_append] at h1 ⊢
      split
      · rename_i hl; rw [if_pos hl] at h1; exact h1
      · rename_i hl
        rw [if_neg hl] at h1
        obtain ⟨j, hj⟩ : ∃ j, i - pre.length = j + 1 := ⟨i - pre.length - 1, by omega⟩
        rw [hj] at h1 ⊢
        exact h1
  induction hr with
  | refl => exact ⟨hm, g, hg, hp⟩
  | tail _ hs ih =>
    obtain ⟨h1, h2⟩ := ih
    cases hs with
    | cut q pre g0 post input => exact ⟨h1, upd hcut h2⟩
    | live hs =>
      cases hs with
      | lexer m pre g0 g' post hl hn => exact ⟨h1, upd (fun h => hstep h hl hn) h2⟩
      | openFail => cases h1
      | openFile => cases h1
      | finish => cases h1
      | receive => cases h1
      | fileDone => cases h1

/-- C88 (blocked forever).  After `Parse` has returned, a lexer that waits for room waits forever, and so does an external lexer that waits for it. -/
theorem C88_stuck {configDir : Str} {s s' : XSys ρ} {r : Res Payload} (hm : s.main = .returned r) {i : Nat} {g : FileG ρ} (hg : s.lexers[i]? = some g)
    (hr : XSysRun X exts env o configDir cap xcap s s') :
    (Stuck exts cap g → ∃ g', s'.lexers[i]? = some g' ∧ Stuck exts cap g') ∧
    (ExtStuck X cap xcap g → ∃ g', s'.lexers[i]? = some g' ∧ ExtStuck X cap xcap g') :=
  ⟨fun h => (kept_run (P := Stuck exts cap) stuck_step (fun h => ⟨h.waits, h.full⟩) hm hg h hr).2,
   fun h => (kept_run (P := ExtStuck X cap xcap) extStuck_step (fun h => ⟨h.tokenize, h.full, h.waits, h.xfull⟩) hm hg h hr).2⟩

/-- A lexer that can do nothing on its own has ended or is stuck. -/
theorem own_end {z : Ahead ρ} (hz : z.Ok X exts) (hroom : z.g.buf.length ≤ cap) (hmax : ∀ g', ExtStep (tkAct exts) X mailbox cap xcap z.g g' → g'.rd ≠ none) :
    (z.g.main = .closed ∧ z.g.ext = .none ∧ z.toks = []) ∨
    (Stuck exts cap z.g ∧ z.toks ≠ [] ∧ (z.g.ext = .none ∨ z.g.ext = .closed ∨ ExtStuck X cap xcap z.g)) := by
  obtain ⟨g, toks, steps⟩ := z
  have hidle : g.rd = none := hz.idle
  have hfut := hz.fut
  have hinv := hz.inv
  obtain ⟨mm, x, xb, cs, l, b, r⟩ := g
  simp only at hidle hfut hinv hroom hmax ⊢
  subst hidle
  have hext : (∃ e t k, x = .live e ∧ X e = .send t k ∧ xcap ≤ xb.length) ∨ x = .none ∨ x = .closed := by
    cases x with
    | none => exact Or.inr (Or.inl rfl)
    | closed => exact Or.inr (Or.inr rfl)
    | live e =>
      cases hX : X e with
      | scan k => cases cs with
        | nil => exact absurd rfl (hmax _ (.xeof _ _ _ _ _ _ _ hX))
        | cons c cs => exact absurd rfl (hmax _ (.xscan _ _ _ _ _ _ _ _ _ hX))
      | stop => exact absurd rfl (hmax _ (.xstop _ _ _ _ _ _ _ hX))
      | send t e' =>
        by_cases hl : xb.length < xcap
        · exact absurd rfl (hmax _ (.xsend _ _ _ _ _ _ _ _ _ hX hl))
        · exact Or.inl ⟨e, t, e', rfl, hX, by omega⟩
  cases mm with
  | closed =>
    cases hfut with
    | closed => exact Or.inl ⟨rfl, rfl, rfl⟩
  | run s =>
    cases hM : tkAct exts s with
    | scan k => cases cs with
      | nil => exact absurd rfl (hmax _ (.eof _ _ _ _ _ _ _ hM))
      | cons c cs => exact absurd rfl (hmax _ (.scan _ _ _ _ _ _ _ _ _ hM))
    | call e ln k => exact absurd rfl (hmax _ (.call _ _ _ _ _ _ _ _ _ _ hM))
    | close => exact absurd rfl (hmax _ (.close _ _ _ _ _ _ _ hM))
    | send t k =>
      by_cases hl : b.length < cap
      · exact absurd rfl (hmax _ (.send _ _ _ _ _ _ _ _ _ hM hl))
      · refine Or.inr ⟨⟨Or.inl ⟨s, t, k, rfl, hM⟩, by simp only; omega⟩, ?_, Or.inl hinv⟩
        cases hfut with
        | run hm => cases hm with
          | scan h2 _ => rw [hM] at h2; cases h2
          | eof h2 _ => rw [hM] at h2; cases h2
          | send h2 _ => simp
          | call h2 _ _ => rw [hM] at h2; cases h2
          | close h2 => rw [hM] at h2; cases h2
  | drain k =>
    cases xb with
    | cons t xb => exact absurd rfl (hmax _ (.xrecv _ _ _ _ _ _ _ _))
    | nil =>
      rcases hext with ⟨e, t, e', rfl, hX, -⟩ | rfl | rfl
      · exact absurd rfl (hmax _ (.xhandoff _ _ _ _ _ _ _ _ hX))
      · exact absurd rfl hinv
      · exact absurd rfl (hmax _ (.ret _ _ _ _ _))
  | fwd t k =>
    by_cases hl : b.length < cap
    · exact absurd rfl (hmax _ (.fwd _ _ _ _ _ _ _ _ hl))
    · have hb : b.length = cap := by omega
      refine Or.inr ⟨⟨Or.inr ⟨t, k, rfl⟩, hb⟩, by cases hfut; simp, ?_⟩
      rcases hext with ⟨e, t', e', rfl, hX, hx⟩ | rfl | rfl
      · exact Or.inr (Or.inr ⟨⟨t, k, rfl⟩, hb, ⟨e, t', e', rfl, hX⟩, hx⟩)
      · exact Or.inl rfl
      · exact Or.inr (Or.inl rfl)

/-- C88 (end).  When nothing goes on any more (and reading the files was not disturbed by closing them), `Parse` has returned, and each lexer has ended, and no external
lexer of it is left, or it is stuck; then an external lexer of it has ended or is stuck too. -/
theorem C88_end (hi : Implements X exts (extLexersOf o.lexers)) {s : XSys ρ} (h : XLiveRun X exts env o (env.dir filename) cap xcap (.init ρ filename) s)
    (hmax : ∀ s', ¬ XLiveStep X exts env o (env.dir filename) cap xcap s s') :
    (∃ r, s.main = .returned r) ∧
    ∀ g ∈ s.lexers, (g.main = .closed ∧ g.ext = .none) ∨ (Stuck exts cap g ∧ (g.ext = .none ∨ g.ext = .closed ∨ ExtStuck X cap xcap g)) := by
  have hret : ∃ r, s.main = .returned r := by
    by_cases hr : ∃ r, s.main = .returned r
    · exact hr
    · obtain ⟨s', h'⟩ := C88_progress hi h.sys (fun r e => hr ⟨r, e⟩)
      exact absurd h' (hmax s')
  refine ⟨hret, fun g hg => ?_⟩
  obtain ⟨zs, n, ha⟩ := h.appears hi
  obtain ⟨main, gs⟩ := s
  have hgs := ha.lexers
  simp only at hgs hg
  subst hgs
  obtain ⟨z, hz, rfl⟩ := List.mem_map.mp hg
  have hroom := ((Inv.run ha.run).1 z.abs (List.mem_map.mpr ⟨z, hz, rfl⟩)).room
  rcases own_end (cap := cap) (xcap := xcap) (ha.ok z hz) hroom (fun g' hs hn => by
      obtain ⟨pre, post, rfl⟩ := List.append_of_mem hz
      rw [List.map_append, List.map_cons] at hmax
      exact hmax _ (.lexer _ _ _ _ _ hs hn)) with ⟨h1, h2, -⟩ | ⟨h1, -, h2⟩
  · exact Or.inl ⟨h1, h2⟩
  · exact Or.inr ⟨h1, h2⟩

/-- When `Parse` has returned, the unread tokens are those that the sequential parser leaves. -/
theorem unread_returned {fuel : Nat} (hf : Parse env fuel filename o ≠ .fuel) {n : Nat} {s : Sys} {r : Res Payload}
    (h : LiveRun env o (env.dir filename) cap n (.init filename) s) (hr : s.main = .returned r) :
    unreadFiles env o (env.dir filename) fuel (initPS filename) [] = (s.lexers.map LexerG.unread).reverse := by
  rw [Parse_topRes] at hf
  obtain ⟨-, hi⟩ := Inv.run h
  rw [hr] at hi
  obtain ⟨k, hi⟩ := hi
  rw [← (hi fuel).2.1]
  exact (unreadFiles_enough env o (env.dir filename) k fuel (initPS filename) [] (topRes_fuel hf)).symm

theorem stuck_toks {z : Ahead ρ} (hz : z.Ok X exts) (h : Stuck exts cap z.g) : z.toks ≠ [] := by
  have hfut := hz.fut
  obtain ⟨g, toks, steps⟩ := z
  obtain ⟨mm, x, xb, cs, l, b, r⟩ := g
  simp only at hfut ⊢
  rcases h.waits with ⟨s, t, k, h1, hM⟩ | ⟨t, k, h1⟩
  · simp only at h1
    subst h1
    cases hfut with
    | run hm => cases hm with
      | scan h2 _ => rw [hM] at h2; cases h2
      | eof h2 _ => rw [hM] at h2; cases h2
      | send h2 _ => simp
      | call h2 _ _ => rw [hM] at h2; cases h2
      | close h2 => rw [hM] at h2; cases h2
  · simp only at h1
    subst h1
    cases hfut
    simp

/-- C88 (leaks).  A lexer can be left behind, stuck forever, if and only if the parser leaves more tokens of some file unread than the channel holds. -/
theorem C88_leak_iff (hi : Implements X exts (extLexersOf o.lexers)) {fuel : Nat} (hf : Parse env fuel filename o ≠ .fuel) :
    (∃ s r g, XLiveRun X exts env o (env.dir filename) cap xcap (.init ρ filename) s ∧ s.main = .returned r ∧ g ∈ s.lexers ∧ Stuck exts cap g) ↔
    ∃ u ∈ unreadFiles env o (env.dir filename) fuel (initPS filename) [], cap < u.length := by
  constructor
  · rintro ⟨s, r, g, h, hr, hg, hst⟩
    obtain ⟨zs, n, ha⟩ := h.appears hi
    rw [unread_returned hf ha.run hr]
    rw [ha.lexers] at hg
    obtain ⟨z, hz, rfl⟩ := List.mem_map.mp hg
    refine ⟨z.abs.unread, ?_, ?_⟩
    · simp only [List.mem_reverse, List.mem_map, absSys]
      exact ⟨z.abs, ⟨z, hz, rfl⟩, rfl⟩
    · have h1 := hst.full
      have h2 := List.length_pos_of_ne_nil (stuck_toks (ha.ok z hz) hst)
      simp only [Ahead.abs, LexerG.unread, Option.toList_none, List.append_nil, List.length_append]
      omega
  · rintro ⟨u, hu, hl⟩
    obtain ⟨s, h, hmax⟩ := C88_ends (cap := cap) (xcap := xcap) hi hf (.refl (.init ρ filename))
    obtain ⟨⟨r, hr⟩, -⟩ := C88_end hi h hmax
    obtain ⟨zs, n, ha⟩ := h.appears hi
    rw [unread_returned hf ha.run hr] at hu
    simp only [List.mem_reverse, List.mem_map, absSys] at hu
    obtain ⟨-, ⟨z, hz, rfl⟩, rfl⟩ := hu
    have hroom := ((Inv.run ha.run).1 z.abs (List.mem_map.mpr ⟨z, hz, rfl⟩)).room
    refine ⟨s, r, z.g, h, hr, by rw [ha.lexers]; exact List.mem_map.mpr ⟨z, hz, rfl⟩, ?_⟩
    obtain ⟨main, gs⟩ := s
    have hgs := ha.lexers
    simp only at hgs
    subst hgs
    rcases own_end (cap := cap) (xcap := xcap) (ha.ok z hz) hroom (fun g' hs hn => by
        obtain ⟨pre, post, rfl⟩ := List.append_of_mem hz
        rw [List.map_append, List.map_cons] at hmax
        exact hmax _ (.lexer _ _ _ _ _ hs hn)) with ⟨-, -, h1⟩ | ⟨h1, -, -⟩
    · simp only [Ahead.abs, LexerG.unread, h1, Option.toList_none, List.append_nil] at hl hroom
      omega
    · exact h1

/-- C88 (nothing left behind).  If the payload has no errors and the files are statements, then no lexer and no external lexer is stuck after `Parse` has returned, and none
has anything left to send. -/
theorem C88_clean (hi : Implements X exts (extLexersOf o.lexers)) {fuel : Nat} {p : Payload} {s : XSys ρ} {r : Res Payload}
    (hp : Parse env fuel filename o = .ok p) (he : p.errors = []) (hc : o.combineConfigs = false)
    (hform : ∀ n path data, env.openFile n path = .ok data → Formed o data)
    (h : XLiveRun X exts env o (env.dir filename) cap xcap (.init ρ filename) s) (hr : s.main = .returned r) :
    r = .ok p ∧ ∀ g ∈ s.lexers, g.buf = [] ∧ ¬ Stuck exts cap g ∧ ¬ ExtStuck X cap xcap g := by
  obtain ⟨zs, n, ha⟩ := h.appears hi
  obtain ⟨h1, h2⟩ := C76_clean hp he hc hform ha.run.sys hr
  refine ⟨h1, fun g hg => ?_⟩
  rw [ha.lexers] at hg
  obtain ⟨z, hz, rfl⟩ := List.mem_map.mp hg
  obtain ⟨h3, -, h4⟩ := h2 z.abs (List.mem_map.mpr ⟨z, hz, rfl⟩)
  exact ⟨h4, fun h => stuck_toks (ha.ok z hz) h h3, fun h => stuck_toks (cap := cap) (ha.ok z hz) ⟨Or.inr h.tokenize, h.full⟩ h3⟩

end Verif
