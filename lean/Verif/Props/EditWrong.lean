import Verif.Props.EditProject
import Verif.Props.Works
import Verif.Props.Outcome
/-!
# C97: an edit of one file of a configuration, with mistakes
-/
namespace Verif
open Spec

/-- The directive, if it is an include directive, names files. -/
def Resolved (look : List Str → Target) (d : Directive) : Prop := ∃ l, targetOf look d = .files l

theorem Resolved.calm {look : List Str → Target} {d : Directive} (h : Resolved look d) : fatal look d = none ∧ (if targetOf look d = .missing then [d.line] else []) = [] := by
  obtain ⟨l, hl⟩ := h
  unfold fatal
  rw [hl]
  simp

theorem Spec.Keeps.resolved {look : List Str → Target} {r : Rules} {c : List Str} {ds : List Directive} {ls : List Int} {toks rest : List Tok} (h : Keeps r c ds ls toks rest)
    (hw : ∀ d, Within d ds → Resolved look d) : KeepsIn look r c ds ls toks rest := by
  have hmiss : ∀ l : List Directive, (∀ d ∈ l, Resolved look d) → missing look l = [] := by
    intro l hl
    exact List.flatMap_eq_nil_iff.mpr fun d hd => (hl d hd).calm.2
  induction h with
  | eof => exact .eof
  | stop hs => exact .stop hs
  | @on ctx t ds ls ds' ls' toks toks' rest hs hk ih =>
    have h1 : ∀ d ∈ ds, Resolved look d := fun d hd => hw d (.here (List.mem_append_left _ hd))
    have := KeepsIn.on (look := look) hs (fun d hd => (h1 d hd).calm.1) (ih fun d hd => hw d (within_append.mpr (.inr hd)))
    rwa [hmiss ds h1, List.append_nil] at this
  | @block ctx t d trailing b lb ds ls toks toks' toks2 rest hs hb hk ih1 ih2 =>
    have h1 : Resolved look d := hw { d with block := some b } (.here (.head _))
    have := KeepsIn.block (look := look) hs h1.calm.1 (ih1 fun x hx => hw x (.deep (.head _) rfl hx)) (ih2 fun x hx => hw x (Within.cons (within_append.mpr (.inr hx))))
    rwa [hmiss [d] (by simpa using h1), List.nil_append] at this

theorem Resolved.comment {look : List Str → Target} {d : Directive} (h : d.directive = c!"#") : Resolved look d := by
  refine ⟨[], ?_⟩
  unfold targetOf
  rw [if_neg]
  rintro ⟨h1, -⟩
  rw [h] at h1
  cases h1

theorem within_commentsAt {b : Bool} {line : Int} {texts : List Str} {d : Directive} (h : Within d (if b then commentsAt line texts else [])) : d.directive = c!"#" := by
  cases b with
  | false => exact absurd h within_nil
  | true =>
    simp only [if_true] at h
    induction texts with
    | nil => exact absurd h within_nil
    | cons t texts ih =>
      rcases within_cons.mp h with rfl | ⟨b, hb, -⟩ | h
      · rfl
      · cases hb
      · exact ih h

theorem Resolved.found {look : List Str → Target} {r : Rules} (hr : r.names = namesOf look) {d : Directive} (h : r.Found d.directive d.args) : Resolved look d := by
  unfold Resolved targetOf
  split
  · rename_i hd
    have h1 := h hd.1
    rw [hr] at h1
    unfold namesOf at h1
    cases hl : look d.args with
    | files l => exact ⟨l, rfl⟩
    | missing => rw [hl] at h1; cases h1
    | noName => rw [hl] at h1; cases h1
    | badPattern => rw [hl] at h1; cases h1
  · exact ⟨[], rfl⟩

/-- Where the grammar holds, all includes name files. -/
theorem Spec.Recover.resolved {look : List Str → Target} {r : Rules} (hr : r.names = namesOf look) {c : List Str} {ds : List Directive} {ls : List Int} {toks : List Tok}
    (h : Recover r c ds ls toks) : ∀ d, Within d ds → Resolved look d := by
  induction h with
  | nil => intro d hd; exact absurd hd within_nil
  | comment _ _ _ ih =>
    intro d hd
    rcases within_cons.mp hd with rfl | ⟨b, hb, -⟩ | hd
    · exact .comment rfl
    · cases hb
    · exact ih d hd
  | skip _ _ _ ih => exact ih
  | param _ _ _ _ _ _ ih =>
    intro d hd
    rcases within_cons.mp hd with rfl | ⟨b, hb, -⟩ | hd
    · exact ⟨[], by simp [targetOf]⟩
    · cases hb
    · exact ih d hd
  | wrongParam _ _ _ _ _ _ ih => exact ih
  | wrongParamBlock _ _ _ _ _ _ _ ih => exact ih
  | ignored _ _ _ _ _ _ ih => exact ih
  | ignoredBlock _ _ _ _ _ _ _ _ ih => exact ih
  | simple _ _ _ _ _ _ _ hf _ ih =>
    intro d hd
    rcases within_cons.mp hd with rfl | ⟨b, hb, -⟩ | hd
    · exact .found hr hf
    · cases hb
    · rcases within_append.mp hd with hd | hd
      · exact .comment (within_commentsAt hd)
      · exact ih d hd
  | wrong _ _ _ _ _ _ _ _ ih => exact ih
  | block _ _ _ _ _ _ _ hf _ _ _ ih1 ih2 =>
    intro d hd
    rcases within_cons.mp hd with rfl | ⟨b, hb, hd⟩ | hd
    · exact .found hr hf
    · cases hb
      exact ih1 d hd
    · rcases within_append.mp hd with hd | hd
      · exact .comment (within_commentsAt hd)
      · exact ih2 d hd
  | wrongBlock _ _ _ _ _ _ _ _ _ ih => exact ih

theorem Spec.Recover.keepsIn {look : List Str → Target} {r : Rules} (hr : r.names = namesOf look) {c : List Str} {ds : List Directive} {ls : List Int} {toks : List Tok}
    (h : Recover r c ds ls toks) (he : ∀ t ∈ toks, t.error = none) : KeepsIn look r c ds ls toks [] := by
  have := C80_recover h [] [] he (.inl ⟨rfl, rfl⟩)
  rw [List.append_nil] at this
  exact this.resolved (h.resolved hr)

/-- Files in the order of their first includes, of all of which something is kept, are the files that are read. -/
theorem work_of_files {toks : Str → Option (List Tok)} {look : List Str → Target} {r : Rules} {start : Str} {fs : List ReadFile}
    (files : fs.map (fun f => (f.name, f.ctx)) = collect [(start, [])] (fs.flatMap (·.refs (namesOf look))))
    (earlier : ∀ pre f post, fs = pre ++ f :: post → pre ≠ [] → ∃ g ∈ pre, f.name ∈ (g.refs (namesOf look)).map (·.1))
    (kept : ∀ f ∈ fs, ∃ ts tree ls rest, toks f.name = some ts ∧ f.reading = .kept tree ls ∧ KeepsIn look r f.ctx tree ls ts rest) (rest : List ReadFile) :
    ∀ done, fs = done ++ rest → Work toks look r (collect [(start, [])] (done.flatMap (·.refs (namesOf look)))) done.length rest .done := by
  have hnd : (fs.map (·.name)).Nodup := by
    have := collect_nodup (fs.flatMap (·.refs (namesOf look))) (k := [(start, [])]) (by simp)
    rw [← files] at this
    simpa [List.map_map, Function.comp_def] using this
  induction rest with
  | nil =>
    intro done e
    rw [List.append_nil] at e
    subst e
    refine .done ?_
    rw [← files]
    simp
  | cons f rest ih =>
    intro done e
    have hpre : collect [(start, [])] (done.flatMap (·.refs (namesOf look))) <+: fs.map fun f => (f.name, f.ctx) := by
      rw [files, e, List.flatMap_append, collect_append]
      exact collect_prefix _ _
    have hmem : f.name ∈ (collect [(start, [])] (done.flatMap (·.refs (namesOf look)))).map (·.1) := by
      rw [mem_collect]
      by_cases hd : done = []
      · left
        obtain ⟨x, hx⟩ := hpre
        rw [hd] at hx e
        rw [e] at hx
        have := congrArg List.head? hx
        simp [collect] at this
        simp [this.1]
      · right
        obtain ⟨g, hg, hm⟩ := earlier done f rest e hd
        obtain ⟨q, hq, hqf⟩ := List.mem_map.mp hm
        exact List.mem_map.mpr ⟨q, List.mem_flatMap.mpr ⟨g, hg, hq⟩, hqf⟩
    have hget : (collect [(start, [])] (done.flatMap (·.refs (namesOf look))))[done.length]? = some (f.name, f.ctx) := by
      generalize hK : collect [(start, [])] (done.flatMap (·.refs (namesOf look))) = K at hpre hmem
      obtain ⟨q, hq, hqf⟩ := List.mem_map.mp hmem
      obtain ⟨i, hi⟩ := List.mem_iff_getElem?.mp hq
      obtain ⟨x, hx⟩ := hpre
      have hiK : i < K.length := by
        by_contra hn
        rw [List.getElem?_eq_none (by omega)] at hi
        cases hi
      have h1 : (fs.map fun f => (f.name, f.ctx))[i]? = some q := by
        rw [← hx, List.getElem?_append_left hiK]; exact hi
      have h2 : (fs.map fun f => (f.name, f.ctx))[done.length]? = some (f.name, f.ctx) := by
        rw [e]; simp
      have h3 : (fs.map (·.name))[i]? = some f.name := by
        have := congrArg (Option.map Prod.fst) h1
        rw [← List.getElem?_map, List.map_map] at this
        simpa [Function.comp_def, hqf] using this
      have h4 : (fs.map (·.name))[done.length]? = some f.name := by
        rw [e]; simp
      have hlt : i < (fs.map (·.name)).length := by
        have := congrArg List.length hx
        simp at this
        simp
        omega
      have : i = done.length := by
        refine (List.getElem?_inj hlt hnd).mp ?_
        rw [h3, h4]
      subst this
      rw [hi, ← h2, h1]
    obtain ⟨ts, tree, ls, rst, k1, k2, k3⟩ := kept f (by rw [e]; simp)
    have hnext := ih (done ++ [f]) (by rw [e]; simp)
    rw [List.flatMap_append, collect_append, List.length_append] at hnext
    obtain ⟨fn, fc, fr⟩ := f
    simp only at k2
    subst k2
    refine .kept hget k1 k3 ?_
    simpa [ReadFile.refs] using hnext

theorem worksNames_eq {env : Env} {o : ParseOptions} (ho : o.singleFile = false) (text : Str → Option FileData) (matching : Str → Option (List Str)) (filename : Str) :
    worksNames env o text matching filename = diskNames env (env.dir filename) text matching := by
  funext args
  unfold worksNames namesOf diskLook diskNames
  rw [ho]
  simp only [Bool.false_eq_true, if_false]
  cases args with
  | nil => rfl
  | cons x args =>
    simp only [lookIn, namesIn]
    generalize (if env.isAbs x = true then x else env.join (env.dir filename) x) = path
    by_cases hm : '*' ∈ path ∨ '?' ∈ path ∨ '[' ∈ path
    · rw [if_pos hm, if_pos hm]
      cases matching path <;> rfl
    · rw [if_neg hm, if_neg hm]
      split <;> rfl

/-- What is made of a file of a project. -/
def SourceFile.read (g : SourceFile) : ReadFile := ⟨g.name, g.ctx, .kept (unlink g.tree) []⟩

section
variable {env env' : Env} {fuel : Nat} {filename : Str} {o : ParseOptions} {text text' : Str → Option FileData} {matching : Str → Option (List Str)} {a b : List SourceFile}
  {f : SourceFile} {new : FileData}

theorem Changed.look (h : Changed env env' o text text' matching f.name new) :
    diskLook env' o (env'.dir filename) text' matching = diskLook env o (env.dir filename) text matching := by
  have e : (fun f => (text' f).isSome) = fun f => (text f).isSome := by
    funext g
    by_cases hg : g = f.name
    · rw [hg, h.changed, h.isFile]; rfl
    · rw [h.same g hg]
  unfold diskLook
  rw [h.isAbs, h.join, h.dir, e]

/-- C97.  A file of a configuration without errors is replaced by another one, maybe wrong, of which something is kept that includes the same files, in the same order and contexts.
With errors collected, the errors are those of this file, and nothing else changes in the payload. -/
theorem C97_mistakes (h : Changed env env' o text text' matching f.name new) (hcol : Collecting env' o text' matching) (hp : IsProject env o text matching filename (a ++ f :: b))
    (hfresh : ∀ g ∈ a ++ f :: b, Fresh g.ctx.length) (hf : (a ++ f :: b).length < fuel) {tree : List Directive} {ls : List Int} {rest : List Tok} :
    let N := diskNames env (env.dir filename) text matching
    KeepsIn (diskLook env o (env.dir filename) text matching) (rulesOf o N) f.ctx tree ls (fileToks o new) rest → refsList N f.ctx tree = refsList N f.ctx f.tree →
    ∃ p, Parse env' fuel filename o = .ok p ∧ p.status = (if ls = [] then c!"ok" else c!"failed") ∧
      p.config.map (fun c => (c.file, c.status, c.parsed, c.errors.map (·.line))) =
        a.map (fun g => (g.name, c!"ok", g.tree, [])) ++
          (f.name, (if ls = [] then c!"ok" else c!"failed"), link N ((a ++ f :: b).map (·.name)) tree, ls.map some) :: b.map (fun g => (g.name, c!"ok", g.tree, [])) ∧
      p.errors.map (fun e => (e.file, e.line)) = ls.map (fun l => (f.name, some l)) := by
  intro N hk hr
  have hfiles : (a ++ f :: b).map (fun f => (f.name, f.ctx)) = collect [(filename, [])] ((a ++ f :: b).flatMap (·.refs N)) := hp.files
  have hs : o.singleFile = false := h.before.follow
  have hN : worksNames env' o text' matching filename = N := by rw [worksNames_eq hs, h.names]
  have hNl : namesOf (diskLook env o (env.dir filename) text matching) = N := worksNames_eq hs text matching filename
  obtain ⟨f', hf'⟩ : ∃ f' : ReadFile, f' = ⟨f.name, f.ctx, .kept tree ls⟩ := ⟨_, rfl⟩
  obtain ⟨fs, hfs⟩ : ∃ fs, fs = a.map SourceFile.read ++ f' :: b.map SourceFile.read := ⟨_, rfl⟩
  have hread : ∀ g : SourceFile, (SourceFile.read g).refs N = g.refs N := fun g => refsList_unlink ..
  have hrefs : f'.refs N = f.refs N := by rw [hf']; exact hr
  let key : ReadFile → Str × List Str × List Ref := fun g => (g.name, g.ctx, g.refs N)
  let key0 : SourceFile → Str × List Str × List Ref := fun g => (g.name, g.ctx, g.refs N)
  have hkey : fs.map key = (a ++ f :: b).map key0 := by
    rw [hfs, List.map_append, List.map_append, List.map_cons, List.map_cons, List.map_map, List.map_map]
    have e1 : key ∘ SourceFile.read = key0 := funext fun g => by simp only [Function.comp, key, key0, hread]; rfl
    have e2 : key f' = key0 f := by simp only [key, key0, hrefs]; rw [hf']
    rw [e1, e2]
  have hkey1 : fs.map (fun g => (g.name, g.ctx)) = (a ++ f :: b).map fun g => (g.name, g.ctx) := by
    have := congrArg (List.map fun x : Str × List Str × List Ref => (x.1, x.2.1)) hkey
    simpa [List.map_map, Function.comp_def, key, key0] using this
  have hkey2 : fs.flatMap (·.refs N) = (a ++ f :: b).flatMap (·.refs N) := by
    have := congrArg (List.flatMap fun x : Str × List Str × List Ref => x.2.2) hkey
    simpa [List.flatMap_map, key, key0] using this
  have hname : fs.map (·.name) = (a ++ f :: b).map (·.name) := by
    have := congrArg (List.map Prod.fst) hkey1
    simpa [List.map_map, Function.comp_def] using this
  have hnd : ((a ++ f :: b).map (·.name)).Nodup := by
    have := collect_nodup ((a ++ f :: b).flatMap (·.refs N)) (k := [(filename, [])]) (by simp)
    rw [← hfiles] at this
    simpa [List.map_map, Function.comp_def] using this
  have hother : ∀ g, g ∈ a ∨ g ∈ b → g.name ≠ f.name := by
    intro g hg e
    rw [List.map_append, List.map_cons, List.nodup_append] at hnd
    obtain ⟨-, h2, h3⟩ := hnd
    rcases hg with hg | hg
    · exact h3 _ (List.mem_map_of_mem hg) _ (List.mem_cons_self ..) e
    · exact (List.nodup_cons.mp h2).1 (by rw [← e]; exact List.mem_map_of_mem hg)
  have hin : ∀ g ∈ fs, g = f' ∨ ∃ g0, (g0 ∈ a ∨ g0 ∈ b) ∧ g = SourceFile.read g0 := by
    intro g hg
    rw [hfs] at hg
    rcases List.mem_append.mp hg with hg | hg
    · obtain ⟨g0, h0, rfl⟩ := List.mem_map.mp hg
      exact .inr ⟨g0, .inl h0, rfl⟩
    · rcases List.mem_cons.mp hg with rfl | hg
      · exact .inl rfl
      · obtain ⟨g0, h0, rfl⟩ := List.mem_map.mp hg
        exact .inr ⟨g0, .inr h0, rfl⟩
  have hwork : Works env' o text' matching filename fs .done := by
    unfold Works
    rw [h.look (filename := filename), hN]
    refine work_of_files (r := rulesOf o N) (start := filename) (fs := fs) ?_ ?_ ?_ fs [] rfl
    · rw [hNl, hkey1, hkey2]
      exact hfiles
    · rw [hNl]
      intro p g q e hp0
      have e' : (a ++ f :: b).map key0 = p.map key ++ key g :: q.map key := by rw [← hkey, e]; simp
      obtain ⟨p', s', e1, e2, e3⟩ := List.map_eq_append_iff.mp e'
      obtain ⟨g', q', rfl, e4, e5⟩ := List.map_eq_cons_iff.mp e3
      obtain ⟨g2, hg2, hm⟩ := hp.earlier p' g' q' e1 (by rintro rfl; simp at e2; exact hp0 (by simpa using e2))
      have : key0 g2 ∈ p.map key := by rw [← e2]; exact List.mem_map_of_mem hg2
      obtain ⟨g3, hg3, e6⟩ := List.mem_map.mp this
      have e4' := congrArg Prod.fst e4
      have e6' := congrArg (fun x => x.2.2) e6
      simp only [key, key0] at e4' e6'
      refine ⟨g3, hg3, ?_⟩
      rw [← e4', e6']
      exact hm
    · intro g hg
      rcases hin g hg with rfl | ⟨g0, h0, rfl⟩
      · exact ⟨_, _, _, _, by rw [hf', h.changed]; rfl, by rw [hf'], by rw [hf']; exact hk⟩
      · obtain ⟨ts, k1, k2, k3⟩ := hp.conf g0 (by rcases h0 with h0 | h0 <;> simp [h0])
        refine ⟨ts, _, _, _, ?_, rfl, k3.recover.keepsIn hNl.symm k2⟩
        show (text' g0.name).map _ = _
        rw [h.same _ (hother g0 h0)]
        exact k1
  have hfr : ∀ g ∈ fs, Fresh g.ctx.length := by
    intro g hg
    rcases hin g hg with rfl | ⟨g0, h0, rfl⟩
    · rw [hf']; exact hfresh f (by simp)
    · exact hfresh g0 (by rcases h0 with h0 | h0 <;> simp [h0])
  have hcyc : ¬ Cyclic (worksNames env' o text' matching filename) fs := by
    rw [hN]
    rintro ⟨c, hc⟩
    refine hp.acyclic c (Relation.TransGen.mono (fun u v huv => ?_) _ _ hc)
    obtain ⟨g, hg, e1, e2⟩ := huv
    have : key g ∈ (a ++ f :: b).map key0 := by rw [← hkey]; exact List.mem_map_of_mem hg
    obtain ⟨g', hg', e⟩ := List.mem_map.mp this
    have e3 := congrArg Prod.fst e
    have e4 := congrArg (fun x => x.2.2) e
    simp only [key, key0] at e3 e4
    refine ⟨g', hg', e3.trans e1, ?_⟩
    show v ∈ (g'.refs N).map (·.1)
    rw [e4]; exact e2
  obtain ⟨p, p1, p2, p3, p4⟩ := C81_done hcol (by simpa [hfs] using hf) hfr hwork hcyc
  have hlines : ∀ l : List SourceFile, (l.map SourceFile.read).flatMap (fun g => g.lines) = [] := by
    intro l
    rw [List.flatMap_map]
    exact List.flatMap_eq_nil_iff.mpr fun g _ => rfl
  have hlf : f'.lines = ls.map some := by rw [hf']; rfl
  refine ⟨p, p1, ?_, ?_, ?_⟩
  · rw [p2, hfs, List.flatMap_append, List.flatMap_cons, hlines, hlines, hlf]
    simp
  · rw [p3, hN, hname, hfs, List.map_append, List.map_cons, List.map_map, List.map_map]
    have hmap : ∀ l : List SourceFile, (∀ g ∈ l, g ∈ a ++ f :: b) →
        l.map ((fun g : ReadFile => (g.name, (if g.lines = [] then c!"ok" else c!"failed"), g.tree N ((a ++ f :: b).map (·.name)), g.lines)) ∘ SourceFile.read) =
          l.map (fun g => (g.name, c!"ok", g.tree, [])) := by
      intro l hl
      refine List.map_congr_left fun g hg => ?_
      have : link N ((a ++ f :: b).map (·.name)) (unlink g.tree) = g.tree := by
        rw [link_unlink]; exact hp.linked g (hl g hg)
      simp only [Function.comp, SourceFile.read, ReadFile.lines, ReadFile.tree, this]
      rfl
    rw [hmap a fun g hg => by simp [hg], hmap b fun g hg => by simp [hg], hlf]
    rw [hf']
    simp [ReadFile.tree]
  · rw [p4, hfs, List.flatMap_append, List.flatMap_cons]
    have hno : ∀ l : List SourceFile, (l.map SourceFile.read).flatMap (fun g : ReadFile => g.lines.map fun x => (g.name, x)) = [] := by
      intro l
      rw [List.flatMap_map]
      exact List.flatMap_eq_nil_iff.mpr fun g _ => rfl
    rw [hno, hno, hlf, hf']
    simp

/-- C97.  Some statements of a file of a configuration without errors are replaced by others, of which some may be wrong, in the ways of Spec/Recovery; the right ones include the same
files as before (for instance: none).  With errors collected, the errors are those of the wrong statements, on their lines, and in the payload nothing changes but the tree of this
file, at one place, and the lines after it. -/
theorem C97_wrong (h : Changed env env' o text text' matching f.name new) (hcol : Collecting env' o text' matching) (hl : o.lexers = []) (hi : o.ignoreDirectives = [])
    (hp : IsProject env o text matching filename (a ++ f :: b)) (hfresh : ∀ g ∈ a ++ f :: b, Fresh g.ctx.length) (hf : (a ++ f :: b).length < fuel)
    {old : FileData} {pre s s' post : Str} (hold : text f.name = some old) (e1 : old.runes = pre ++ (s ++ post)) (e2 : new.runes = pre ++ (s' ++ post))
    (hpre : Boundary lex pre) (hs : StmtText s) (hs' : StmtText s') :
    let N := diskNames env (env.dir filename) text matching
    let ctx := contextAt ((lex pre).filter (·.error == none)) f.ctx
    ∃ x, Conf (rulesOf o N) ctx x (lex s) ∧ ∀ y ls, Recover (rulesOf o N) ctx y ls (lex s') → (∀ c, refsList N c x = refsList N c y) →
      ∃ tree p, Exchanged (nls s' - nls s) (laterList (nls pre) x) (laterList (nls pre) y) (unlink f.tree) tree ∧ Parse env' fuel filename o = .ok p ∧
        p.status = (if ls = [] then c!"ok" else c!"failed") ∧
        p.config.map (fun c => (c.file, c.status, c.parsed, c.errors.map (·.line))) =
          a.map (fun g => (g.name, c!"ok", g.tree, [])) ++
            (f.name, (if ls = [] then c!"ok" else c!"failed"), link N ((a ++ f :: b).map (·.name)) tree, ls.map fun l => some (l + nls pre)) ::
              b.map (fun g => (g.name, c!"ok", g.tree, [])) ∧
        p.errors.map (fun e => (e.file, e.line)) = ls.map (fun l => (f.name, some (l + nls pre))) := by
  intro N ctx
  obtain ⟨ts, k1, k2, k3⟩ := hp.conf f (by simp)
  rw [hold] at k1
  cases k1
  rw [fileToks_lex hl, e1] at k2 k3
  obtain ⟨hin, -, x, hx, h1, -⟩ := edit_toks (s' := s') (r := rulesOf o N) hi hpre hs hs' k2 k3
  refine ⟨x, hx, fun y ls hy hxy => ?_⟩
  obtain ⟨d, hd, hd1⟩ := h1 y ls hy
  have hNl : namesOf (diskLook env o (env.dir filename) text matching) = N := worksNames_eq h.before.follow text matching filename
  obtain ⟨p, p1, p2, p3, p4⟩ := C97_mistakes h hcol hp hfresh hf (by rw [fileToks_lex hl, e2]; exact hd1.keepsIn hNl.symm hin) (by
    rw [← hd.refs (N := N) (fun c => by rw [refsList_later, refsList_later, hxy]) f.ctx, refsList_unlink])
  have hz : ls.map (· + nls pre) = [] ↔ ls = [] := by simp
  simp only [hz, List.map_map, Function.comp_def] at p2 p3 p4
  exact ⟨d, p, hd, p1, p2, p3, p4⟩

end

/-- In the second file of two a wrong directive is added: one error, in this file and on its line; the tree and the links of the first file are as before. -/
example : let e := serr c!"\"user\" directive is not allowed here" c!"/e/a" 2 c!"user u" c!"http"
    Parse (exEnv [(c!"/e/n", c!"http{include a;include a;}"), (c!"/e/a", c!"x y;\n" ++ (c!"user u;\n" ++ c!"z;"))]) 3 c!"/e/n" exOpts =
      .ok { status := c!"failed"
            errors := [{ file := c!"/e/a", line := some 2, error := e }]
            config := [{ file := c!"/e/n", status := c!"ok", parsed := [blk c!"http" 1 [] [incl 1 c!"a" [1], incl 1 c!"a" [1]]] },
              { file := c!"/e/a", status := c!"failed", errors := [{ line := some 2, error := e }], parsed := [dir c!"x" 1 [c!"y"], dir c!"z" 3 []] }] } := by
  decide +kernel

/-- `exTwo` with a wrong statement in place of the one of its second file. -/
def exTwoWrong : List (Str × Str) := [(c!"/e/n", c!"http{include a;include a;}"), (c!"/e/a", c!"user u;")]

theorem exTwoWrong_changed : Changed (exEnv exTwo) (exEnv exTwoWrong) exOpts (exTexts exTwo) (exTexts exTwoWrong) (exMatching exTwo) c!"/e/a" { runes := c!"user u;" } where
  before := exTwo_followed
  after := ⟨fun _ => List.Perm.refl _, exEnv_readOnly exTwoWrong (by decide +kernel), rfl, rfl⟩
  isAbs := rfl
  join := rfl
  dir := rfl
  isFile := rfl
  changed := rfl
  same := by
    intro g hg
    simp only [exTexts, exTwo, exTwoWrong, List.lookup]
    split
    · rfl
    · have : (g == c!"/e/a") = false := by simpa using hg
      rw [this]

/-- The premises hold of it: nothing is kept of the second file, which has one error. -/
example : ∃ p, Parse (exEnv exTwoWrong) 3 c!"/e/n" exOpts = .ok p ∧ p.status = c!"failed" ∧
    p.config.map (fun c => (c.file, c.status, c.parsed, c.errors.map (·.line))) =
      [(c!"/e/n", c!"ok", [blk c!"http" 1 [] [incl 1 c!"a" [1], incl 1 c!"a" [1]]], []), (c!"/e/a", c!"failed", [], [some 1])] ∧
    p.errors.map (fun e => (e.file, e.line)) = [(c!"/e/a", some 1)] := by
  have hcol : Collecting (exEnv exTwoWrong) exOpts (exTexts exTwoWrong) (exMatching exTwo) :=
    ⟨exTwoWrong_changed.after.perm, exTwoWrong_changed.after.disk, (fun _ _ _ h => by cases h), rfl, rfl⟩
  have := C97_mistakes (a := [⟨c!"/e/n", [], [blk c!"http" 1 [] [incl 1 c!"a" [1], incl 1 c!"a" [1]]]⟩]) (f := ⟨c!"/e/a", [c!"http"], [dir c!"x" 1 [c!"y"]]⟩) (b := [])
    (tree := []) (ls := [1]) (rest := []) (fuel := 3) exTwoWrong_changed hcol exTwo_project ?_ (by decide) ?_ (by decide +kernel)
  · exact this
  · intro f hf
    rcases List.mem_cons.mp hf with rfl | hf
    · exact Or.inl (Nat.zero_le _)
    · obtain rfl := List.mem_singleton.mp hf
      exact Or.inl (Nat.le_refl _)
  · have hl : lex c!"user u;" = [⟨c!"user", 1, false, none⟩, ⟨c!"u", 1, false, none⟩, ⟨c!";", 1, false, none⟩] := by decide +kernel
    have hr : Recover (rulesOf exOpts (diskNames (exEnv exTwo) c!"/e" (exTexts exTwo) (exMatching exTwo))) [c!"http"] [] [1] (lex c!"user u;") := by
      rw [hl]
      refine .wrong (mid := [⟨c!"u", 1, false, none⟩]) (args := [c!"u"]) (texts := []) (mapCtx_none.mp (by decide)) (by simp [rulesOf, exOpts]) (exWord (by decide))
        (.word (exWord (by decide)) .nil) ⟨rfl, rfl⟩ ?_ ?_ .nil
      · intro hok
        have := (analyze_rules [] { directive := c!"user", line := 1, args := [c!"u"] } c!";" [c!"http"] exOpts _).mpr hok
        exact absurd this (by decide +kernel)
      · rintro ⟨x, hx⟩
        have := congrArg List.length hx
        simp at this
    exact hr.keepsIn (worksNames_eq (env := exEnv exTwo) rfl (exTexts exTwo) (exMatching exTwo) c!"/e/n").symm (by rw [hl]; decide)

end Verif
