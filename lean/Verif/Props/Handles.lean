import Verif.Proofs.Handles
import Verif.Props.Ex
/-!
# C69: every file that is opened is closed, exactly once
-/
namespace Verif
open Spec

/-- The events of `Parse`: every file parsed stays open until the end; what is opened while it is parsed is closed by then; at the end the files are closed, the last
one first. -/
theorem ParseH_shape (env : Env) (fuel : Nat) (filename : Str) (o : ParseOptions) :
    (ParseH env fuel filename o).1 = Parse env fuel filename o ∧
      ((parseFiles env o (env.dir filename) fuel (initPS filename) []).1 ≠ .fuel → ∃ (l : List (Nat × List HEvent)) (f : List HEvent),
        (∀ y ∈ l, Nested y.2) ∧ (f = [] ∨ (∃ e, Parse env fuel filename o = .err e) ∧ ∃ k, f = [.failed k]) ∧
        (ParseH env fuel filename o).2 = fileEvents l ++ f ++ (l.map (·.1)).reverse.map .close ∧
        (∃ n, calls (ParseH env fuel filename o).2 = List.range n) ∧
        ∀ cs ps, parseFiles env o (env.dir filename) fuel (initPS filename) [] = (.ok cs, ps) → l.length = cs.length) := by
  obtain ⟨h1, h2⟩ := parseFilesH_ok env o (env.dir filename) fuel (initPS filename) [] []
  unfold ParseH Parse
  generalize parseFiles env o (env.dir filename) fuel (initPS filename) [] = R at h1 h2 ⊢
  generalize parseFilesH env o (env.dir filename) fuel (initPS filename) [] [] = X at h1 h2 ⊢
  obtain ⟨⟨x, frame⟩, tr⟩ := X
  obtain ⟨r, ps⟩ := R
  cases h1
  have key : r ≠ .fuel → ∃ (l : List (Nat × List HEvent)) (f : List HEvent), frame = (l.map (·.1)).reverse ∧
        (∀ y ∈ l, Nested y.2) ∧ (f = [] ∨ (∃ e, r = .err e) ∧ ∃ k, f = [.failed k]) ∧ tr = fileEvents l ++ f ∧
        (∃ n, calls (tr ++ frame.map .close) = List.range n) ∧ ∀ cs, r = .ok cs → l.length = cs.length := by
    intro hr
    obtain ⟨l, f, h⟩ := h2 hr
    refine ⟨l, f, by simpa using h.frame, h.nested, h.last, h.events, ⟨ps.opens, ?_⟩, fun cs hcs => by simpa using (h.ok cs hcs).symm⟩
    have := h.calls.2
    rw [calls_append, calls_closes, List.append_nil, List.range_eq_range']
    simpa [initPS] using this
  cases r with
  | ok configs =>
    obtain ⟨l, f, rfl, a1, a2, rfl, a3, a4⟩ := key (by simp)
    obtain rfl : f = [] := by
      rcases a2 with h | ⟨⟨e, h⟩, -⟩
      · exact h
      · cases h
    dsimp only
    by_cases hc : isAcyclic env ps = true
    · simp only [if_pos hc]
      exact ⟨rfl, fun _ => ⟨l, [], a1, Or.inl rfl, rfl, a3, fun cs ps h => by cases h; exact a4 _ rfl⟩⟩
    · simp only [if_neg hc]
      exact ⟨rfl, fun _ => ⟨l, [], a1, Or.inl rfl, rfl, a3, fun cs ps h => by cases h; exact a4 _ rfl⟩⟩
  | err e =>
    obtain ⟨l, f, rfl, a1, a2, rfl, a3, a4⟩ := key (by simp)
    refine ⟨rfl, fun _ => ⟨l, f, a1, ?_, rfl, a3, fun cs ps h => by cases h⟩⟩
    rcases a2 with h | ⟨⟨e, h⟩, h'⟩
    · exact Or.inl h
    · exact Or.inr ⟨⟨_, rfl⟩, h'⟩
  | panic =>
    obtain ⟨l, f, rfl, a1, a2, rfl, a3, a4⟩ := key (by simp)
    obtain rfl : f = [] := by
      rcases a2 with h | ⟨⟨e, h⟩, -⟩
      · exact h
      · cases h
    exact ⟨rfl, fun _ => ⟨l, [], a1, Or.inl rfl, rfl, a3, fun cs ps h => by cases h⟩⟩
  | fuel => exact ⟨rfl, fun h => absurd rfl h⟩

/-! ## What nesting means -/

theorem held_foldl_nested {t : List HEvent} (h : Nested t) (hs : List Nat) :
    t.foldl holds hs = hs := by
  induction h generalizing hs with
  | nil => rfl
  | failed k _ ih => exact ih hs
  | @handle k t u _ _ ih1 ih2 =>
    rw [List.cons_append, List.foldl_cons, List.foldl_append, ih1, List.foldl_cons]
    show u.foldl holds ((k :: hs).erase k) = hs
    rw [List.erase_cons_head, ih2]

theorem held_nested {t : List HEvent} (h : Nested t) : held t = [] := held_foldl_nested h []

theorem held_fileEvents {l : List (Nat × List HEvent)} (h : ∀ y ∈ l, Nested y.2) (hs : List Nat) :
    (fileEvents l).foldl holds hs = (l.map (·.1)).reverse ++ hs := by
  induction l generalizing hs with
  | nil => rfl
  | cons x l ih =>
    have e : fileEvents (x :: l) = .open_ x.1 :: (x.2 ++ fileEvents l) := by simp [fileEvents]
    rw [e, List.foldl_cons, List.foldl_append, held_foldl_nested (h x (by simp)), ih (fun y hy => h y (List.mem_cons_of_mem _ hy))]
    simp [holds]

theorem nested_count {t : List HEvent} (h : Nested t) (k : Nat) : t.count (.open_ k) = t.count (.close k) := by
  induction h with
  | nil => rfl
  | failed j _ ih => simpa [List.count_cons] using ih
  | @handle j t u _ _ ih1 ih2 =>
    simp only [List.cons_append, List.count_cons, List.count_append, ih1, ih2]
    by_cases hj : j = k <;> simp [hj] <;> omega

theorem nested_before {t : List HEvent} (h : Nested t) {k : Nat} {a b : List HEvent} (he : t = a ++ .close k :: b) : .open_ k ∈ a := by
  induction h generalizing a b with
  | nil => cases a <;> cases he
  | failed j _ ih =>
    cases a with
    | nil => cases he
    | cons x a =>
      injection he with h1 h2
      exact List.mem_cons_of_mem _ (ih h2)
  | @handle j t u _ _ ih1 ih2 =>
    cases a with
    | nil => cases he
    | cons x a =>
      injection he with h1 h2
      subst h1
      rcases List.append_eq_append_iff.mp h2 with ⟨c, rfl, h3⟩ | ⟨c, rfl, h3⟩
      · cases c with
        | nil => cases h3; simp
        | cons y c =>
          injection h3 with h4 h5
          have := ih2 h5
          simp [this]
      · cases c with
        | nil => cases h3; simp
        | cons y c =>
          injection h3 with h4 h5
          subst h4
          have := ih1 rfl
          simp [this]

theorem calls_count (t : List HEvent) (k : Nat) : t.count (.open_ k) ≤ (calls t).count k := by
  induction t with
  | nil => simp
  | cons e t ih =>
    cases e with
    | open_ j =>
      have : calls (.open_ j :: t) = j :: calls t := rfl
      rw [this, List.count_cons, List.count_cons]
      by_cases hj : j = k <;> simp [hj, ih]
    | failed j =>
      have : calls (.failed j :: t) = j :: calls t := rfl
      rw [this, List.count_cons, List.count_cons]
      by_cases hj : j = k <;> simp [hj] <;> omega
    | close j =>
      have : calls (.close j :: t) = calls t := rfl
      rw [this, List.count_cons]
      simpa using ih

theorem Parse_fuel_files {env : Env} {fuel : Nat} {filename : Str} {o : ParseOptions} (h : Parse env fuel filename o ≠ .fuel) :
    (parseFiles env o (env.dir filename) fuel (initPS filename) []).1 ≠ .fuel := by
  intro h'
  apply h
  unfold Parse
  generalize parseFiles env o (env.dir filename) fuel (initPS filename) [] = R at h' ⊢
  obtain ⟨r, ps⟩ := R
  cases h'
  rfl

/-- The run with handles has the result of the run without. -/
theorem C69_result (env : Env) (fuel : Nat) (filename : Str) (o : ParseOptions) : (ParseH env fuel filename o).1 = Parse env fuel filename o :=
  (ParseH_shape env fuel filename o).1

/-- **C69**.  When `Parse` returns, with a payload, an error or a panic, every file it has opened is closed: exactly once, after it was opened, the last one first. -/
theorem C69_closed {env : Env} {fuel : Nat} {filename : Str} {o : ParseOptions} (h : Parse env fuel filename o ≠ .fuel) :
    Nested (ParseH env fuel filename o).2 ∧ held (ParseH env fuel filename o).2 = [] ∧
      (∀ k, (ParseH env fuel filename o).2.count (.open_ k) ≤ 1 ∧ (ParseH env fuel filename o).2.count (.close k) = (ParseH env fuel filename o).2.count (.open_ k)) ∧
      (∀ k a b, (ParseH env fuel filename o).2 = a ++ .close k :: b → .open_ k ∈ a) ∧
      ∃ n, calls (ParseH env fuel filename o).2 = List.range n := by
  obtain ⟨l, f, h1, h2, h3, ⟨n, h4⟩, -⟩ := (ParseH_shape env fuel filename o).2 (Parse_fuel_files h)
  have hn : Nested (ParseH env fuel filename o).2 := by
    rw [h3, List.append_assoc]
    refine (fileEvents_rest h1 (fr := []) ?_).nested
    rw [List.append_nil]
    refine (Rest.closes _).prepend ?_
    rcases h2 with rfl | ⟨-, k, rfl⟩
    · exact .nil
    · exact .failed k .nil
  refine ⟨hn, held_nested hn, fun k => ⟨?_, (nested_count hn k).symm⟩, fun k a b he => nested_before hn he, n, h4⟩
  refine Nat.le_trans (calls_count _ k) ?_
  rw [h4]
  exact List.nodup_iff_count.mp List.nodup_range k

/-- **C69**: what is open when.  The files of the payload are opened one after the other and all of them are open until the return; what else is opened while a file
is parsed (to see whether the files of include directives exist) is closed before the next file is opened. -/
theorem C69_files {env : Env} {fuel : Nat} {filename : Str} {o : ParseOptions} {p : Payload} (h : Parse env fuel filename o = .ok p) (hc : o.combineConfigs = false) :
    ∃ l : List (Nat × List HEvent), l.length = p.config.length ∧ (∀ y ∈ l, Nested y.2) ∧
      (ParseH env fuel filename o).2 = (l.flatMap fun x => .open_ x.1 :: x.2) ++ (l.map (·.1)).reverse.map .close := by
  have hf : Parse env fuel filename o ≠ .fuel := by rw [h]; simp
  obtain ⟨l, f, h1, h2, h3, -, h5⟩ := (ParseH_shape env fuel filename o).2 (Parse_fuel_files hf)
  obtain rfl : f = [] := by
    rcases h2 with rfl | ⟨⟨e, he⟩, -⟩
    · rfl
    · rw [h] at he; cases he
  refine ⟨l, ?_, h1, by rw [h3, List.append_nil]; rfl⟩
  unfold Parse at h
  generalize parseFiles env o (env.dir filename) fuel (initPS filename) [] = R at h h5
  obtain ⟨r, ps⟩ := R
  cases r with
  | ok cs =>
    dsimp only at h
    rw [h5 cs ps rfl]
    split at h
    · cases h
    · simp [hc] at h
      rw [← h]
  | err e => cases h
  | panic => cases h
  | fuel => cases h

/-- **C69**: all files of a configuration are open at once, just before the return of `Parse`. -/
theorem C69_peak {env : Env} {fuel : Nat} {filename : Str} {o : ParseOptions} {p : Payload} (h : Parse env fuel filename o = .ok p) (hc : o.combineConfigs = false) :
    ∃ a b, (ParseH env fuel filename o).2 = a ++ b ∧ (held a).length = p.config.length ∧ (held a).Nodup := by
  obtain ⟨l, h1, h2, h3⟩ := C69_files h hc
  have hf : Parse env fuel filename o ≠ .fuel := by rw [h]; simp
  refine ⟨_, _, h3, ?_, ?_⟩
  · have := held_fileEvents h2 []
    show List.length (held (fileEvents l)) = _
    unfold held
    rw [this]; simp [h1]
  · have := held_fileEvents h2 []
    show List.Nodup (held (fileEvents l))
    unfold held
    rw [this, List.append_nil]
    refine (List.reverse_perm _).nodup_iff.mpr ?_
    obtain ⟨n, hn⟩ := (C69_closed hf).2.2.2.2
    have hs : (l.map (·.1)).Sublist (calls (ParseH env fuel filename o).2) := by
      rw [h3, calls_append, calls_closes, List.append_nil]
      clear h3 h1 h2 this
      induction l with
      | nil => simp
      | cons x l ih =>
        rw [List.flatMap_cons, calls_append, List.map_cons]
        have : calls (.open_ x.1 :: x.2) = x.1 :: calls x.2 := rfl
        rw [this, List.cons_append]
        exact (ih.trans (List.sublist_append_right _ _)).cons_cons _
    rw [hn] at hs
    exact hs.nodup List.nodup_range

/-! ## Writing -/

/-- The events of writing `n` files one after the other. -/
def writes : Nat → List HEvent
  | 0 => []
  | n + 1 => writes n ++ [.open_ n, .close n]

theorem nested_writes (n : Nat) : Nested (writes n) := by
  induction n with
  | zero => exact .nil
  | succ n ih => exact ih.append (.handle n .nil .nil)

theorem buildFilesLoop_noted {σ : Type} (isPrint : Char → Bool) (os : OS σ) (dir : Str) (s : σ) (o : BuildOptions) (configs : List Config) (n : Nat)
    {e : Option GoErr} {s' : σ} {t : List HEvent} {n' : Nat} (h : buildFilesLoop isPrint (notedOS os) dir (s, writes n, n) o configs = some (e, s', t, n')) :
    buildFilesLoop isPrint os dir s o configs = some (e, s') ∧ ∃ m, (e = none → m = n + configs.length ∧ t = writes m) ∧
      (t = writes m ∨ t = writes m ++ [.failed m] ∨ t = writes m ++ [.open_ m] ∧ ∃ s1 path b e', os.write s1 path b = (s', some e') ∧ e = some e') := by
  induction configs generalizing s o n with
  | nil =>
    cases h
    exact ⟨rfl, n', fun _ => ⟨rfl, rfl⟩, Or.inl rfl⟩
  | cons config configs ih =>
    rw [buildFilesLoop] at h ⊢
    have e0 : ∀ p s x, (notedOS os).mkdirAll (s, x) p = (((os.mkdirAll s p).1, x), (os.mkdirAll s p).2) := fun _ _ _ => rfl
    have e1 : ∀ p s, (notedOS os).create (s, writes n, n) p =
      (((os.create s p).1, writes n ++ [if (os.create s p).2.isSome then .failed n else .open_ n], n + 1), (os.create s p).2) := fun _ _ => rfl
    have e2 : ∀ p s x b, (notedOS os).write (s, x) p b = (((os.write s p b).1, x), (os.write s p b).2) := fun _ _ _ _ => rfl
    have e3 : ∀ p s x, (notedOS os).close (s, x, n + 1) p = (((os.close s p).1, x ++ [.close n], n + 1), (os.close s p).2) := fun _ _ _ => rfl
    have e4 : (notedOS os).isAbs = os.isAbs := rfl
    have e5 : (notedOS os).join = os.join := rfl
    have e6 : (notedOS os).dir = os.dir := rfl
    rw [e4, e5] at h
    generalize (if (!os.isAbs config.file) = true then os.join dir config.file else config.file) = path at h ⊢
    rw [e0, e6] at h
    generalize os.mkdirAll s (os.dir path) = r at h ⊢
    rcases r with ⟨s1, _ | e⟩
    · dsimp only at h ⊢
      generalize Build isPrint bufferWriter [] config o = r at h ⊢
      rcases r with _ | ⟨_ | e, buf, o'⟩
      · cases h
      · dsimp only at h ⊢
        rw [e1] at h
        generalize os.create s1 path = r at h ⊢
        rcases r with ⟨s2, _ | e⟩
        · dsimp only at h ⊢
          rw [e2] at h
          rcases hw : os.write s2 path (trimRightSpace buf ++ ['\n']) with ⟨s3, _ | e⟩
          · rw [hw] at h
            dsimp only at h ⊢
            rw [e3] at h
            generalize os.close s3 path = r at h ⊢
            rcases r with ⟨s4, _ | e⟩
            · dsimp only at h ⊢
              have e7 : writes n ++ [HEvent.open_ n] ++ [HEvent.close n] = writes (n + 1) := by simp [writes]
              simp only [Option.isSome_none, Bool.false_eq_true, if_false, e7] at h
              have := ih s4 o' (n + 1) h
              rw [show n + 1 + configs.length = n + (config :: configs).length by simp; omega] at this
              exact this
            · cases h
              refine ⟨rfl, n + 1, fun h => (by cases h), Or.inl ?_⟩
              simp [writes]
          · rw [hw] at h
            cases h
            refine ⟨rfl, n, fun h => (by cases h), Or.inr (Or.inr ⟨?_, s2, path, _, e, hw, rfl⟩)⟩
            simp
        · cases h
          refine ⟨rfl, n, fun h => (by cases h), Or.inr (Or.inl ?_)⟩
          simp
      · cases h
        exact ⟨rfl, n', fun h => (by cases h), Or.inl rfl⟩
    · cases h
      exact ⟨rfl, n', fun h => (by cases h), Or.inl rfl⟩

theorem held_writes (n : Nat) (t : List HEvent) : held (writes n ++ t) = held t := by
  unfold held
  rw [List.foldl_append, held_foldl_nested (nested_writes n)]

theorem calls_writes (n : Nat) : calls (writes n) = List.range n := by
  induction n with
  | zero => rfl
  | succ n ih => rw [writes, calls_append, ih, List.range_succ]; rfl

/-- **C69**, `BuildFiles`: with handles it does the same; without an error one file is created per config and closed before the next one is; at any return at most
one handle is left open, and only if writing to it failed. -/
theorem C69_write {σ : Type} {isPrint : Char → Bool} {os : OS σ} {s s' : σ} {payload : Payload} {dir : Str} {o : BuildOptions} {e : Option GoErr}
    {t : List HEvent} {n : Nat} (h : BuildFiles isPrint (notedOS os) (s, [], 0) payload dir o = some (e, s', t, n)) :
    BuildFiles isPrint os s payload dir o = some (e, s') ∧ (e = none → Nested t ∧ calls t = List.range payload.config.length) ∧
      (held t = [] ∨ ∃ k, held t = [k] ∧ ∃ s1 path b e', os.write s1 path b = (s', some e') ∧ e = some e') := by
  have key : ∀ (s : σ) (dir : Str) (o : BuildOptions), buildFilesLoop isPrint (notedOS os) dir (s, [], 0) o payload.config = some (e, s', t, n) →
      buildFilesLoop isPrint os dir s o payload.config = some (e, s') ∧ (e = none → Nested t ∧ calls t = List.range payload.config.length) ∧
      (held t = [] ∨ ∃ k, held t = [k] ∧ ∃ s1 path b e', os.write s1 path b = (s', some e') ∧ e = some e') := by
    intro s dir o h
    obtain ⟨h1, m, h2, h3⟩ := buildFilesLoop_noted isPrint os dir s o payload.config 0 h
    refine ⟨h1, fun he => ?_, ?_⟩
    · obtain ⟨rfl, rfl⟩ := h2 he
      rw [Nat.zero_add]
      exact ⟨nested_writes _, calls_writes _⟩
    · rcases h3 with rfl | rfl | ⟨rfl, h4⟩
      · exact Or.inl (held_nested (nested_writes m))
      · exact Or.inl (held_writes m _)
      · exact Or.inr ⟨m, held_writes m _, h4⟩
  unfold BuildFiles at h ⊢
  by_cases hd : (dir == []) = true
  · rw [if_pos hd] at h ⊢
    have e1 : (notedOS os).getwd (s, [], 0) = (((os.getwd s).1, [], 0), (os.getwd s).2) := rfl
    rw [e1] at h
    generalize os.getwd s = r at h ⊢
    rcases r with ⟨s1, e' | cwd⟩
    · cases h
      exact ⟨rfl, fun h => (by cases h), Or.inl rfl⟩
    · exact key s1 cwd _ h
  · rw [if_neg hd] at h ⊢
    exact key s dir _ h

theorem Build_noted {σ : Type} (isPrint : Char → Bool) (c : Creator σ) (s : σ) (x : List HEvent × Nat) (config : Config) (o : BuildOptions) :
    Build isPrint ⟨(notedCreator c).write⟩ (s, x) config o = (Build isPrint ⟨c.write⟩ s config o).map (fun r => (r.1, (r.2.1, x), r.2.2)) := by
  unfold Build
  dsimp only [notedCreator]
  by_cases hh : o.header = true
  · simp only [if_pos hh]
    rcases c.write s header with ⟨s1, _ | e⟩
    · dsimp only
      cases buildBody isPrint (buildSetup o) config.parsed <;> rfl
    · rfl
  · simp only [if_neg hh]
    cases buildBody isPrint (buildSetup o) config.parsed <;> rfl

/-- A failing `Build` is a failing write. -/
theorem Build_error {σ : Type} {isPrint : Char → Bool} {w : Writer σ} {s s' : σ} {config : Config} {o o' : BuildOptions} {e : GoErr}
    (h : Build isPrint w s config o = some (some e, s', o')) : ∃ s1 b, w.write s1 b = (s', some e) := by
  unfold Build at h
  dsimp only at h
  generalize hr : (if o.header = true then w.write s header else (s, none)) = r at h
  obtain ⟨s1, _ | e1⟩ := r
  · dsimp only at h
    cases hb : buildBody isPrint (buildSetup o) config.parsed with
    | none => rw [hb] at h; cases h
    | some body =>
      rw [hb] at h
      have h : some ((w.write s1 body).2, (w.write s1 body).1, buildSetup o) = some (some e, s', o') := h
      injection h with h
      exact ⟨s1, body, Prod.ext (congrArg (fun x => x.2.1) h) (congrArg (fun x => x.1) h)⟩
  · cases h
    by_cases hh : o.header = true
    · rw [if_pos hh] at hr
      exact ⟨s, header, hr⟩
    · rw [if_neg hh] at hr; cases hr

theorem BuildInto_noted {σ : Type} (isPrint : Char → Bool) (c : Creator σ) (s : σ) (o : BuildOptions) (configs : List Config) (n : Nat)
    {e : Option GoErr} {s' : σ} {t : List HEvent} {n' : Nat} {o' : BuildOptions}
    (h : BuildInto isPrint (notedCreator c) (s, writes n, n) o configs = some (e, (s', t, n'), o')) :
    BuildInto isPrint c s o configs = some (e, s', o') ∧ ∃ m, (e = none → m = n + configs.length ∧ t = writes m) ∧
      (t = writes m ∨ t = writes m ++ [.failed m] ∨ t = writes m ++ [.open_ m] ∧ ∃ s1 b e', c.write s1 b = (s', some e') ∧ e = some e') := by
  induction configs generalizing s o n with
  | nil =>
    cases h
    exact ⟨rfl, n', fun _ => ⟨rfl, rfl⟩, Or.inl rfl⟩
  | cons config configs ih =>
    rw [BuildInto] at h ⊢
    have e0 : (notedCreator c).create (s, writes n, n) config.file =
      (((c.create s config.file).1, writes n ++ [if (c.create s config.file).2.isSome then .failed n else .open_ n], n + 1), (c.create s config.file).2) := rfl
    rw [e0] at h
    generalize c.create s config.file = r at h ⊢
    rcases r with ⟨s2, _ | e⟩
    · dsimp only at h ⊢
      rw [Build_noted] at h
      rcases hb : Build isPrint ⟨c.write⟩ s2 config o with _ | ⟨_ | e, s3, o1⟩
      · rw [hb] at h; cases h
      · rw [hb] at h
        dsimp only [Option.map_some] at h ⊢
        have e2 : ∀ x, (notedCreator c).close (s3, x, n + 1) = (((c.close s3).1, x ++ [.close n], n + 1), (c.close s3).2) := fun _ => rfl
        rw [e2] at h
        generalize c.close s3 = r at h ⊢
        rcases r with ⟨s4, _ | e⟩
        · dsimp only at h ⊢
          have e1 : writes n ++ [HEvent.open_ n] ++ [HEvent.close n] = writes (n + 1) := by simp [writes]
          simp only [Option.isSome_none, Bool.false_eq_true, if_false, e1] at h
          have := ih s4 o1 (n + 1) h
          rw [show n + 1 + configs.length = n + (config :: configs).length by simp; omega] at this
          exact this
        · cases h
          refine ⟨rfl, n + 1, fun h => (by cases h), Or.inl ?_⟩
          simp [writes]
      · rw [hb] at h
        cases h
        obtain ⟨s1, b, hw⟩ := Build_error hb
        refine ⟨rfl, n, fun h => (by cases h), Or.inr (Or.inr ⟨?_, s1, b, e, hw, rfl⟩)⟩
        simp
    · cases h
      refine ⟨rfl, n, fun h => (by cases h), Or.inr (Or.inl ?_)⟩
      simp

/-- **C69**, `BuildInto`: the same for the handles of a `Creator`. -/
theorem C69_into {σ : Type} {isPrint : Char → Bool} {c : Creator σ} {s s' : σ} {configs : List Config} {o o' : BuildOptions} {e : Option GoErr}
    {t : List HEvent} {n : Nat} (h : BuildInto isPrint (notedCreator c) (s, [], 0) o configs = some (e, (s', t, n), o')) :
    BuildInto isPrint c s o configs = some (e, s', o') ∧ (e = none → Nested t ∧ calls t = List.range configs.length) ∧
      (held t = [] ∨ ∃ k, held t = [k] ∧ ∃ s1 b e', c.write s1 b = (s', some e') ∧ e = some e') := by
  obtain ⟨h1, m, h2, h3⟩ := BuildInto_noted isPrint c s o configs 0 h
  refine ⟨h1, fun he => ?_, ?_⟩
  · obtain ⟨rfl, rfl⟩ := h2 he
    rw [Nat.zero_add]
    exact ⟨nested_writes _, calls_writes _⟩
  · rcases h3 with rfl | rfl | ⟨rfl, h4⟩
    · exact Or.inl (held_nested (nested_writes m))
    · exact Or.inl (held_writes m _)
    · exact Or.inr ⟨m, held_writes m _, h4⟩

/-! ## Examples -/

/-- A file with includes in a block, one of which does not exist. -/
def exHandles : Env := exEnv [(c!"/e/m", c!"include /e/s; http { include /e/s; include /e/x; }\ninclude /e/t;"), (c!"/e/s", c!"include /e/t;"), (c!"/e/t", c!"")]

theorem exHandles_events : (ParseH exHandles 5 c!"/e/m" exOpts).2 =
    [.open_ 0, .open_ 1, .open_ 2, .failed 3, .close 2, .open_ 4, .close 4, .close 1, .open_ 5, .open_ 6, .close 6, .open_ 7, .close 7, .close 5, .close 0] := by decide +kernel

example : Nested (ParseH exHandles 5 c!"/e/m" exOpts).2 ∧ held (ParseH exHandles 5 c!"/e/m" exOpts).2 = [] :=
  have h := C69_closed (env := exHandles) (fuel := 5) (filename := c!"/e/m") (o := exOpts) (by decide +kernel)
  ⟨h.1, h.2.1⟩

/-- With this file, three files are open at once. -/
example : ∃ p, Parse exHandles 5 c!"/e/m" exOpts = .ok p ∧ p.config.length = 3 ∧
    ∃ a b, (ParseH exHandles 5 c!"/e/m" exOpts).2 = a ++ b ∧ (held a).length = 3 ∧ (held a).Nodup := by
  rcases h : Parse exHandles 5 c!"/e/m" exOpts with p | _ | _ | _
  · have hl : (match Parse exHandles 5 c!"/e/m" exOpts with | .ok p => p.config.length | _ => 0) = 3 := by decide +kernel
    rw [h] at hl
    have := C69_peak h rfl
    rw [show p.config.length = 3 from hl] at this
    exact ⟨p, rfl, hl, this⟩
  all_goals
    have hl : (match Parse exHandles 5 c!"/e/m" exOpts with | .ok p => p.config.length | _ => 0) = 3 := by decide +kernel
    rw [h] at hl
    cases hl

/-- The run that ends in an error: everything is closed. -/
example : Parse exHandles 5 c!"/e/m" { exOpts with stopParsingOnError := true } ≠ .fuel ∧
    (ParseH exHandles 5 c!"/e/m" { exOpts with stopParsingOnError := true }).2 = [.open_ 0, .open_ 1, .open_ 2, .failed 3, .close 2, .close 1, .close 0] := by
  decide +kernel

/-- A disk on which nothing can be written. -/
def fullDisk : OS Unit where
  getwd := fun s => (s, .ok c!"/e")
  mkdirAll := fun s _ => (s, none)
  create := fun s _ => (s, none)
  write := fun s _ _ => (s, some (.other c!"no space left on device"))
  close := fun s _ => (s, none)
  isAbs := fun f => hasPrefix f c!"/"
  join := fun d f => d ++ c!"/" ++ f
  dir := fun _ => c!"/"

/-- **C69** fails of the code when writing: `BuildFiles` does not close the file if writing to it fails. -/
theorem C69_false_write : ∃ (os : OS Unit) (t : List HEvent) (n : Nat) (e : GoErr),
    BuildFiles (fun _ => true) (notedOS os) ((), [], 0) (okPayload [(c!"/e/m", [dir c!"user" 1 [c!"x"]])]) [] {} = some (some e, (), t, n) ∧ held t = [0] :=
  ⟨fullDisk, [.open_ 0], 1, .other c!"no space left on device", by decide +kernel⟩

/-- **C69** fails of the code when writing: neither does `BuildInto`. -/
theorem C69_false_into : ∃ (c : Creator Unit) (t : List HEvent) (n : Nat) (e : GoErr) (o : BuildOptions),
    BuildInto (fun _ => true) (notedCreator c) ((), [], 0) {} [{ file := c!"/e/m", status := c!"ok", parsed := [dir c!"user" 1 [c!"x"]] }] = some (some e, ((), t, n), o) ∧ held t = [0] :=
  ⟨⟨fun s _ => (s, none), fun s _ => (s, some (.other c!"no space left on device")), fun s => (s, none)⟩, [.open_ 0], 1, .other c!"no space left on device", buildSetup {}, rfl, rfl⟩

/-- Two files written: nothing is left open. -/
example : ∃ s' n, BuildFiles (fun _ => true) (notedOS { fullDisk with write := fun s _ _ => (s, none) }) ((), [], 0) (okPayload [(c!"m", [dir c!"user" 1 [c!"x"]]), (c!"/e/n", [])]) [] {} =
    some (none, s', [.open_ 0, .close 0, .open_ 1, .close 1], n) := ⟨(), 2, by decide +kernel⟩

end Verif
