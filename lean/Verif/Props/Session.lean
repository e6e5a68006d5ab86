import Verif.Spec.Session
import Verif.Props.Build
import Verif.Props.Ex
/-!
# C84: build options can be used again
-/
namespace Verif
open Verif.Spec

/-- The options with the settings `p` after some calls. -/
structure Used (p : Settings) (o : BuildOptions) : Prop where
  indent : o.indent = p.indent ∨ (p.indent = 0 ∧ o.indent = 4)
  tabs : o.tabs = p.tabs
  header : o.header = p.header
  builders : o.builders = p.builders
  ext : o.extBuilders = none ∨ (p.builders ≠ [] ∧ o.extBuilders = some (lastBuilder p.builders))

theorem Used.fresh (p : Settings) : Used p p.fresh := ⟨.inl rfl, rfl, rfl, rfl, .inl rfl⟩

theorem ext_eq_some {o : BuildOptions} {f : Str → Option Builder} (hs : o.extBuilders.isSome = true) (h : ∀ name, o.ext name = f name) : o.extBuilders = some f := by
  cases he : o.extBuilders with
  | none => rw [he] at hs; cases hs
  | some m =>
    refine congrArg some (funext fun name => ?_)
    rw [← h name]
    simp [BuildOptions.ext, he]

theorem or_self' {α : Type} (x : Option α) : x.or x = x := by cases x <;> rfl

theorem Used.apply {p : Settings} {o : BuildOptions} (h : Used p o) :
    Used p (applyBuilders o) ∧ (applyBuilders o).extBuilders = (if p.builders = [] then none else some (lastBuilder p.builders)) := by
  obtain ⟨k1, k2, k3, k4⟩ := applyBuilders_keeps o
  have key : (applyBuilders o).extBuilders = (if p.builders = [] then none else some (lastBuilder p.builders)) := by
    by_cases hb : p.builders = []
    · rw [if_pos hb]
      unfold applyBuilders
      rw [h.builders, hb]
      rcases h.ext with he | ⟨hne, -⟩
      · exact he
      · exact absurd hb hne
    · rw [if_neg hb]
      refine ext_eq_some (ext_some _ (by rw [h.builders]; exact hb) _) fun name => ?_
      rw [applyBuilders_ext, h.builders]
      rcases h.ext with he | ⟨-, he⟩
      · simp [BuildOptions.ext, he]
      · simp only [BuildOptions.ext, he, Option.bind_some]; exact or_self' _
  refine ⟨⟨by rw [k1]; exact h.indent, by rw [k2]; exact h.tabs, by rw [k3]; exact h.header, by rw [k4]; exact h.builders, ?_⟩, key⟩
  rw [key]
  by_cases hb : p.builders = []
  · exact .inl (if_pos hb)
  · exact .inr ⟨hb, if_neg hb⟩

/-- The options that `Build` works with. -/
def Spec.Settings.ready (p : Settings) : BuildOptions :=
  { indent := if p.indent = 0 then 4 else p.indent, tabs := p.tabs, header := p.header, builders := p.builders,
    extBuilders := if p.builders = [] then none else some (lastBuilder p.builders) }

theorem Used.withIndent {p : Settings} {o : BuildOptions} (h : Used p o) : Used p (if o.indent == 0 then { o with indent := 4 } else o) := by
  by_cases hi : o.indent = 0
  · simp only [hi, beq_self_eq_true, if_true]
    refine ⟨.inr ⟨?_, rfl⟩, h.tabs, h.header, h.builders, h.ext⟩
    rcases h.indent with h | h
    · rw [← h, hi]
    · exact h.1
  · simp only [beq_iff_eq, hi, if_false]
    exact h

theorem Used.ready (p : Settings) : Used p p.ready := by
  refine ⟨?_, rfl, rfl, rfl, ?_⟩
  · by_cases hi : p.indent = 0 <;> simp [Settings.ready, hi]
  · by_cases hb : p.builders = [] <;> simp [Settings.ready, hb]

theorem Used.setup {p : Settings} {o : BuildOptions} (h : Used p o) : buildSetup o = p.ready := by
  have hi := h.withIndent
  obtain ⟨k1, k2, k3, k4⟩ := buildSetup_keeps o
  have hind : (buildSetup o).indent = p.ready.indent := by
    rw [k1]
    unfold Settings.ready
    rcases h.indent with h | ⟨h1, h2⟩
    · rw [h]
    · rw [h1, h2]; rfl
  have hext : (buildSetup o).extBuilders = p.ready.extBuilders := by
    unfold buildSetup Settings.ready
    simp only
    generalize (if (o.indent == 0) = true then { o with indent := 4 } else o) = o1 at hi
    rcases he : o1.extBuilders with _ | m
    · simp only [Option.isNone_none, if_true]
      exact hi.apply.2
    · simp only [Option.isNone_some, Bool.false_eq_true, if_false]
      rcases hi.ext with h2 | ⟨hne, h2⟩
      · rw [he] at h2; cases h2
      · rw [h2, if_neg hne]
  generalize buildSetup o = q at *
  obtain ⟨q1, q2, q3, q4, q5⟩ := q
  simp only at *
  unfold Settings.ready at *
  simp only at *
  rw [hind, k2, k3, k4, hext, h.tabs, h.header, h.builders]

/-- The same error and state, and options with the same settings. -/
def SameRun {σ : Type} (p : Settings) (a b : Option (Option GoErr × σ × BuildOptions)) : Prop :=
  (a = none ∧ b = none) ∨ ∃ e s o o', a = some (e, s, o) ∧ b = some (e, s, o') ∧ Used p o ∧ Used p o'

theorem Used.build {σ : Type} {p : Settings} {o o' : BuildOptions} (h : Used p o) (h' : Used p o') (isPrint : Char → Bool) (w : Writer σ) (s : σ) (config : Config) :
    SameRun p (Build isPrint w s config o) (Build isPrint w s config o') := by
  have hr : ∀ {q : BuildOptions}, Used p q → (if q.header = true then w.write s Verif.header else (s, none)) = (if p.header = true then w.write s Verif.header else (s, none)) :=
    fun hq => by rw [hq.header]
  unfold Build
  simp only [h.setup, h'.setup]
  rw [hr h, hr h']
  rcases (if p.header = true then w.write s Verif.header else (s, none)) with ⟨s1, _ | e⟩
  · simp only
    cases hb : buildBody isPrint p.ready config.parsed with
    | none => exact .inl ⟨rfl, rfl⟩
    | some body => exact .inr ⟨_, _, _, _, rfl, rfl, .ready p, .ready p⟩
  · exact .inr ⟨_, _, _, _, rfl, rfl, h.withIndent, h'.withIndent⟩

theorem Used.buildInto {σ : Type} {p : Settings} (isPrint : Char → Bool) (c : Creator σ) (configs : List Config) : ∀ {o o' : BuildOptions} (_ : Used p o) (_ : Used p o') (s : σ),
    SameRun p (BuildInto isPrint c s o configs) (BuildInto isPrint c s o' configs) := by
  induction configs with
  | nil => intro o o' h h' s; exact .inr ⟨_, _, _, _, rfl, rfl, h, h'⟩
  | cons config configs ih =>
    intro o o' h h' s
    unfold BuildInto
    rcases c.create s config.file with ⟨s1, _ | e⟩
    · simp only
      rcases h.build h' isPrint ⟨c.write⟩ s1 config with ⟨e1, e2⟩ | ⟨e, s2, o1, o1', e1, e2, u, u'⟩
      · rw [e1, e2]; exact .inl ⟨rfl, rfl⟩
      · rw [e1, e2]
        cases e with
        | some e => exact .inr ⟨_, _, _, _, rfl, rfl, u, u'⟩
        | none =>
          simp only
          rcases c.close s2 with ⟨s3, _ | e⟩
          · exact ih u u' s3
          · exact .inr ⟨_, _, _, _, rfl, rfl, u, u'⟩
    · exact .inr ⟨_, _, _, _, rfl, rfl, h, h'⟩

theorem Used.buildFilesLoop {σ : Type} {p : Settings} (isPrint : Char → Bool) (os : OS σ) (dir : Str) (configs : List Config) :
    ∀ {o o' : BuildOptions} (_ : Used p o) (_ : Used p o') (s : σ), SameRun p (buildFilesLoopO isPrint os dir s o configs) (buildFilesLoopO isPrint os dir s o' configs) := by
  induction configs with
  | nil => intro o o' h h' s; exact .inr ⟨_, _, _, _, rfl, rfl, h, h'⟩
  | cons config configs ih =>
    intro o o' h h' s
    unfold buildFilesLoopO
    simp only
    generalize (if (!os.isAbs config.file) = true then os.join dir config.file else config.file) = path
    rcases os.mkdirAll s (os.dir path) with ⟨s1, _ | e⟩
    · simp only
      rcases h.build h' isPrint bufferWriter [] config with ⟨e1, e2⟩ | ⟨e, buf, o1, o1', e1, e2, u, u'⟩
      · rw [e1, e2]; exact .inl ⟨rfl, rfl⟩
      · rw [e1, e2]
        cases e with
        | some e => exact .inr ⟨_, _, _, _, rfl, rfl, u, u'⟩
        | none =>
          simp only
          rcases os.create s1 path with ⟨s2, _ | e⟩
          · simp only
            rcases os.write s2 path (trimRightSpace buf ++ ['\n']) with ⟨s3, _ | e⟩
            · simp only
              rcases os.close s3 path with ⟨s4, _ | e⟩
              · exact ih u u' s4
              · exact .inr ⟨_, _, _, _, rfl, rfl, u, u'⟩
            · exact .inr ⟨_, _, _, _, rfl, rfl, u, u'⟩
          · exact .inr ⟨_, _, _, _, rfl, rfl, u, u'⟩
    · exact .inr ⟨_, _, _, _, rfl, rfl, h, h'⟩

theorem Used.buildFiles {σ : Type} {p : Settings} {o o' : BuildOptions} (h : Used p o) (h' : Used p o') (isPrint : Char → Bool) (os : OS σ) (s : σ) (payload : Payload) (dir : Str) :
    SameRun p (BuildFilesO isPrint os s payload dir o) (BuildFilesO isPrint os s payload dir o') := by
  unfold BuildFilesO
  by_cases hd : dir = []
  · simp only [hd, beq_self_eq_true, if_true]
    rcases os.getwd s with ⟨s1, e | cwd⟩
    · exact .inr ⟨_, _, _, _, rfl, rfl, h, h'⟩
    · exact Used.buildFilesLoop isPrint os cwd payload.config h.apply.1 h'.apply.1 s1
  · simp only [beq_iff_eq, hd, if_false]
    exact Used.buildFilesLoop isPrint os dir payload.config h.apply.1 h'.apply.1 s

theorem Used.call {σ : Type} {p : Settings} {o o' : BuildOptions} (h : Used p o) (h' : Used p o') (isPrint : Char → Bool) (s : σ) (e : Event σ)
    (hb : p.builders = [] ∨ (p.after e).builders = p.builders) : SameRun (p.after e) (e.call isPrint s o) (e.call isPrint s o') := by
  cases e with
  | build w config => exact h.build h' isPrint w s config
  | into c configs => exact Used.buildInto isPrint c configs h h' s
  | files os payload dir => exact h.buildFiles h' isPrint os s payload dir
  | setIndent n => exact .inr ⟨_, _, _, _, rfl, rfl, ⟨.inl rfl, h.tabs, h.header, h.builders, h.ext⟩, ⟨.inl rfl, h'.tabs, h'.header, h'.builders, h'.ext⟩⟩
  | setTabs b => exact .inr ⟨_, _, _, _, rfl, rfl, ⟨h.indent, rfl, h.header, h.builders, h.ext⟩, ⟨h'.indent, rfl, h'.header, h'.builders, h'.ext⟩⟩
  | setHeader b => exact .inr ⟨_, _, _, _, rfl, rfl, ⟨h.indent, h.tabs, rfl, h.builders, h.ext⟩, ⟨h'.indent, h'.tabs, rfl, h'.builders, h'.ext⟩⟩
  | setBuilders bs =>
    have key : ∀ {o}, Used p o → Used (p.after (Event.setBuilders (σ := σ) bs)) { o with builders := bs } := by
      intro o h
      refine ⟨h.indent, h.tabs, h.header, rfl, ?_⟩
      rcases h.ext with he | ⟨hne, he⟩
      · exact .inl he
      · rcases hb with hb | hb
        · exact absurd hb hne
        · have hb : bs = p.builders := hb
          subst hb
          exact .inr ⟨hne, he⟩
    exact .inr ⟨_, _, _, _, rfl, rfl, key h, key h'⟩

/-- C84.  A program that uses one options value for calls of Build, BuildInto and BuildFiles, in any order and also after errors, and between them assigns to Indent, Tabs and
Header, gets from every call what it would get with new options of the same fields. -/
theorem C84 {σ : Type} (isPrint : Char → Bool) (es : List (Event σ)) (p : Settings) (hk : BuildersKept p es) (s : σ) : session isPrint s p.fresh es = apart isPrint s p es := by
  suffices h : ∀ (es : List (Event σ)) (p : Settings) (o : BuildOptions) (s : σ), Used p o → BuildersKept p es → session isPrint s o es = apart isPrint s p es from
    h es p p.fresh s (.fresh p) hk
  intro es
  induction es with
  | nil => intro p o s _ _; rfl
  | cons e es ih =>
    intro p o s h hk
    unfold session apart
    rcases h.call (.fresh p) isPrint s e hk.1 with ⟨e1, e2⟩ | ⟨err, s1, o1, o1', e1, e2, u, -⟩
    · rw [e1, e2]
    · rw [e1, e2]
      simp only
      rw [ih _ _ _ u hk.2]

/-- C84.  BuildFiles is the one of Model/Build. -/
theorem C84_files {σ : Type} (isPrint : Char → Bool) (os : OS σ) (s : σ) (payload : Payload) (dir : Str) (o : BuildOptions) :
    BuildFiles isPrint os s payload dir o = (BuildFilesO isPrint os s payload dir o).map fun r => (r.1, r.2.1) := by
  have key : ∀ (dir : Str) (configs : List Config) (s : σ) (o : BuildOptions),
      buildFilesLoop isPrint os dir s o configs = (buildFilesLoopO isPrint os dir s o configs).map fun r => (r.1, r.2.1) := by
    intro dir configs
    induction configs with
    | nil => intro s o; rfl
    | cons config configs ih =>
      intro s o
      unfold buildFilesLoop buildFilesLoopO
      simp only
      generalize (if (!os.isAbs config.file) = true then os.join dir config.file else config.file) = path
      rcases os.mkdirAll s (os.dir path) with ⟨s1, _ | e⟩
      · simp only
        rcases Build isPrint bufferWriter [] config o with _ | ⟨_ | e, buf, o⟩
        · rfl
        · simp only
          rcases os.create s1 path with ⟨s2, _ | e⟩
          · simp only
            rcases os.write s2 path (trimRightSpace buf ++ ['\n']) with ⟨s3, _ | e⟩
            · simp only
              rcases os.close s3 path with ⟨s4, _ | e⟩
              · exact ih s4 o
              · rfl
            · rfl
          · rfl
        · rfl
      · rfl
  unfold BuildFiles BuildFilesO
  by_cases hd : dir = []
  · simp only [hd, beq_self_eq_true, if_true]
    rcases os.getwd s with ⟨s1, e | cwd⟩
    · rfl
    · exact key _ _ _ _
  · simp only [beq_iff_eq, hd, if_false]
    exact key _ _ _ _

/-- A builder that writes a fixed text for the directive `x`. -/
def exBuilder (text : Str) : RegisterBuilder := ⟨fun _ => text, [c!"x"]⟩

/-- The state of the world is the text written so far. -/
def exCalls : List (Event Str) :=
  [.build bufferWriter { file := c!"f", parsed := [blk c!"a" 1 [] [dir c!"x" 2 []]] }, .setIndent 2, .into ⟨fun s n => (s ++ n ++ c!":", none), fun s b => (s ++ b, none), fun s => (s, none)⟩
    [{ file := c!"f", parsed := [blk c!"a" 1 [] [dir c!"x" 2 [], dir c!"y" 3 []]] }]]

example : session (fun _ => true) [] { builders := [exBuilder c!"X."] } exCalls =
    some ([none, none, none], c!"a {\n    X.\n}" ++ c!"f:" ++ c!"a {\n  X.\n  y;\n}") := by decide +kernel

example : BuildersKept { builders := [exBuilder c!"X."] } exCalls := ⟨.inr rfl, .inr rfl, .inr rfl, trivial⟩

/-- The state of the world is the text written so far, also to files. -/
def exWorld : OS Str := ⟨fun s => (s, .ok c!"/d"), fun s _ => (s, none), fun s p => (s ++ p ++ c!":", none), fun s _ b => (s ++ b, none), fun s _ => (s, none), fun _ => true, fun d f => d ++ f, id⟩

/-- C84 is false if the builders are changed after a call: Build keeps the old builders, and does not use new ones. -/
theorem C84_false_builders : ∃ (es : List (Event Str)) (p : Settings), session (fun _ => true) [] p.fresh es = some ([none, none, none], c!"A" ++ c!"A") ∧
    apart (fun _ => true) [] p es = some ([none, none, none], c!"A" ++ c!"B") :=
  ⟨[.build bufferWriter { file := c!"f", parsed := [dir c!"x" 1 []] }, .setBuilders [exBuilder c!"B"], .build bufferWriter { file := c!"f", parsed := [dir c!"x" 1 []] }], { builders := [exBuilder c!"A"] },
    by decide +kernel, by decide +kernel⟩

/-- C84 is false if the builders are changed after a call: BuildFiles uses the new ones, but also those of the old ones that should be gone. -/
theorem C84_false_files : ∃ (es : List (Event Str)) (p : Settings), session (fun _ => true) [] p.fresh es = some ([none, none, none], c!"A" ++ c!"/f:A\nB\n") ∧
    apart (fun _ => true) [] p es = some ([none, none, none], c!"A" ++ c!"/f:x;\nB\n") :=
  ⟨[.build bufferWriter { file := c!"/f", parsed := [dir c!"x" 1 []] }, .setBuilders [⟨fun _ => c!"B", [c!"y"]⟩],
    .files exWorld { config := [{ file := c!"/f", parsed := [dir c!"x" 1 [], dir c!"y" 2 []] }] } []], { builders := [exBuilder c!"A"] }, by decide +kernel, by decide +kernel⟩

end Verif
