import Verif.Proofs.Edit
/-!
# C96: an edit of a file changes the tree at one place
-/
namespace Verif
open Spec

section
variable {env env' : Env} {fuel fuel' : Nat} {filename : Str} {o : ParseOptions} {old new : FileData} {pre s s' post : Str} {ds : List Directive}

/-- A file that is accepted, and the same file with other statements, `s'`, in place of some, `s`. -/
structure Edit (env env' : Env) (fuel' : Nat) (filename : Str) (o : ParseOptions) (old new : FileData) (pre s s' post : Str) (ds : List Directive) : Prop where
  lexers : o.lexers = []
  ignore : o.ignoreDirectives = []
  oneOld : OneFile env' filename o old
  oneNew : OneFile env filename o new
  oldText : old.runes = pre ++ (s ++ post)
  newText : new.runes = pre ++ (s' ++ post)
  before : Boundary lex pre
  out : StmtText s
  in' : StmtText s'
  enough : 2 ≤ fuel'
  starts : StartsWithWord (lex old.runes)
  ends : StatementsEnd (lex old.runes)
  accepted : Parse env' fuel' filename o = .ok (okPayload [(filename, ds)])

/-- What there is to know of the two files. -/
theorem Edit.toks (h : Edit env env' fuel' filename o old new pre s s' post ds) :
    let ctx := contextAt ((lex pre).filter (·.error == none))
    (∀ t ∈ lex new.runes, t.error = none) ∧ Shape (lex new.runes) ∧ ∃ x, Conf (rulesOf o) ctx x (lex s) ∧
      (∀ y ls, Recover (rulesOf o) ctx y ls (lex s') → ∃ ds', Exchanged (nls s' - nls s) (laterList (nls pre) x) (laterList (nls pre) y) ds ds' ∧
        Recover (rulesOf o) [] ds' (ls.map (· + nls pre)) (lex new.runes)) ∧
      ∀ ds', Conf (rulesOf o) [] ds' (lex new.runes) → ∃ y, Conf (rulesOf o) ctx y (lex s') := by
  have hold := C70_sound_tree h.oneOld h.enough (.inr ⟨h.lexers, h.ignore, h.starts, h.ends⟩) h.accepted
  rw [fileToks_lex h.lexers, h.oldText] at hold
  rw [h.newText]
  exact edit_toks h.ignore h.before h.out h.in' hold.1 hold.2

/-- C96.  Some statements of a file that is accepted, in whatever block, are replaced by others.  The new file is accepted just when the new statements are acceptable in the context
of this block, whatever else there is in the file; and then its tree is the old one with the directives of the new statements in place of those of the old ones.  The lines are those of
the new file: nothing changes before this place, and what follows it is as many lines later as there are more lines in the new statements. -/
theorem C96_edit (h : Edit env env' fuel' filename o old new pre s s' post ds) (hf : 2 ≤ fuel) :
    let ctx := contextAt ((lex pre).filter (·.error == none))
    ∃ x, Conf (rulesOf o) ctx x (lex s) ∧
      ((∃ ds', Parse env fuel filename o = .ok (okPayload [(filename, ds')])) ↔ ∃ y, Conf (rulesOf o) ctx y (lex s')) ∧
      ∀ y, Conf (rulesOf o) ctx y (lex s') → ∃ ds', Parse env fuel filename o = .ok (okPayload [(filename, ds')]) ∧
        Exchanged (nls s' - nls s) (laterList (nls pre) x) (laterList (nls pre) y) ds ds' := by
  intro ctx
  obtain ⟨hin, hsh, x, hx, h1, h2⟩ := h.toks
  rw [← fileToks_lex h.lexers] at hin hsh
  have accept : ∀ y, Conf (rulesOf o) ctx y (lex s') → ∃ ds', Parse env fuel filename o = .ok (okPayload [(filename, ds')]) ∧
        Exchanged (nls s' - nls s) (laterList (nls pre) x) (laterList (nls pre) y) ds ds' := by
    intro y hy
    obtain ⟨d1, hd, hd1⟩ := h1 y [] hy.recover
    rw [← fileToks_lex h.lexers] at hd1
    exact ⟨d1, C70_complete h.oneNew hf hin (hd1.conf rfl), hd⟩
  refine ⟨x, hx, ⟨?_, fun ⟨y, hy⟩ => ?_⟩, accept⟩
  · rintro ⟨ds', hp⟩
    have hnew := C70_sound_tree h.oneNew hf (.inl ⟨hin, hsh⟩) hp
    rw [fileToks_lex h.lexers] at hnew
    exact h2 ds' hnew.2
  · obtain ⟨ds', hp, -⟩ := accept y hy
    exact ⟨ds', hp⟩

/-- C96.  If some of the new statements are wrong, in the ways of Spec/Recovery, then the errors are those of the new statements, on their lines, and the tree is the old one with
the directives of the new statements that are right in place of those of the old ones. -/
theorem C96_wrong (h : Edit env env' fuel' filename o old new pre s s' post ds) (hf : 2 ≤ fuel) (hs : o.stopParsingOnError = false) {y : List Directive} {ls : List Int}
    (hy : Recover (rulesOf o) (contextAt ((lex pre).filter (·.error == none))) y ls (lex s')) :
    ∃ x p ds', Conf (rulesOf o) (contextAt ((lex pre).filter (·.error == none))) x (lex s) ∧ Parse env fuel filename o = .ok p ∧
      p.config.map (fun c => (c.file, c.status, c.parsed)) = [(filename, if ls = [] then c!"ok" else c!"failed", ds')] ∧
      p.errors.map (fun e => (e.file, e.line)) = ls.map (fun l => (filename, some (l + nls pre))) ∧
      Exchanged (nls s' - nls s) (laterList (nls pre) x) (laterList (nls pre) y) ds ds' := by
  obtain ⟨hin, -, x, hx, h1, -⟩ := h.toks
  obtain ⟨d1, hd, hd1⟩ := h1 y ls hy
  rw [← fileToks_lex h.lexers] at hin hd1
  obtain ⟨p, g1, g2, g3, -⟩ := C74_partial h.oneNew hf hs hin hd1
  refine ⟨x, p, d1, hx, g1, ?_, ?_, hd⟩
  · simpa using g2
  · rw [g3, List.map_map]; rfl

theorem conf_comments {r : Rules} {ctx : List Str} {toks : List Tok} (h : Comments toks) :
    ∃ y, Conf r ctx y toks ∧ (∀ d ∈ y, d.directive = c!"#") ∧ (r.comments = false → y = []) := by
  induction toks with
  | nil => exact ⟨[], .nil, by simp, fun _ => rfl⟩
  | cons t toks ih =>
    obtain ⟨y, h1, h2, h3⟩ := ih fun t ht => h t (.tail _ ht)
    obtain ⟨text, hc⟩ := h t (.head _)
    cases hr : r.comments with
    | true =>
      refine ⟨_, .comment hr hc h1, ?_, by simp⟩
      intro d hd
      rcases List.mem_cons.mp hd with rfl | hd
      · rfl
      · exact h2 d hd
    | false => exact ⟨y, .skip hr hc h1, h2, fun _ => h3 hr⟩

/-- C96.  If statements are deleted, or replaced by comments, the file is always accepted, and its tree is the old one without their directives; the comments are there instead of
them, if they are kept. -/
theorem C96_without (h : Edit env env' fuel' filename o old new pre s s' post ds) (hf : 2 ≤ fuel) (hs : ∀ t ∈ lex s', ∃ text, CommentTok t text) :
    ∃ x y ds', Conf (rulesOf o) (contextAt ((lex pre).filter (·.error == none))) x (lex s) ∧ Parse env fuel filename o = .ok (okPayload [(filename, ds')]) ∧
      Exchanged (nls s' - nls s) (laterList (nls pre) x) (laterList (nls pre) y) ds ds' ∧ (∀ d ∈ y, d.directive = c!"#") ∧ (o.parseComments = false → y = []) := by
  obtain ⟨x, h1, -, h2⟩ := C96_edit h hf
  obtain ⟨y, h3, h4, h5⟩ := conf_comments (r := rulesOf o) (ctx := contextAt ((lex pre).filter (·.error == none))) hs
  obtain ⟨ds', h6, h7⟩ := h2 y h3
  exact ⟨x, y, ds', h1, h6, h7, h4, h5⟩

end

theorem comment_line_run (line : Str) : ∀ (st : LexSt), st.lexState = .inComment → st.esc = false → st.depth = 0 → (∀ c ∈ line, c ≠ '\n' ∧ c ≠ '\r' ∧ c ≠ '\\') →
    ∃ st', lexRun st (line ++ ['\n']) = ([⟨st.token ++ line, st.tokenStartLine, false, none⟩], some st') ∧ st'.lexState = .skipSpace ∧ st'.esc = false ∧ lexFinish st' = [] := by
  induction line with
  | nil =>
    intro st h1 h2 h3 _
    refine ⟨{ (bump st '\n') with esc := false }.reset, ?_, rfl, rfl, ?_⟩
    · simp [lexRun, lexStep, h2, lexSwitch, bump, h1, isEOL, LexSt.emitTok, hasSuffix]
    · simp [lexFinish, LexSt.reset, bump, h3]
  | cons c line ih =>
    intro st h1 h2 h3 h4
    obtain ⟨k1, k2, k3⟩ := h4 c (.head _)
    have hs : lexStep st c = ([], some { st with token := st.token ++ [c], esc := false }) := by
      have hn : ¬ ['\n'] <:+ [c] := by
        rintro ⟨l, hl⟩
        cases l with
        | nil => simp at hl; exact k1 hl.symm
        | cons a l => simp at hl
      simp [hn, lexStep, k2, k3, h2, lexSwitch, bump, k1, h1, isEOL, hasSuffix]
    obtain ⟨st', j1, j2⟩ := ih { st with token := st.token ++ [c], esc := false } h1 rfl h3 fun c hc => h4 c (.tail _ hc)
    refine ⟨st', ?_, j2⟩
    rw [List.cons_append, lexRun, hs]
    simp only [j1, List.nil_append, List.append_assoc, List.cons_append]

/-- C96.  A line that begins with `#` is one comment. -/
theorem C96_line {line : Str} (h : ∀ c ∈ line, c ≠ '\n' ∧ c ≠ '\r' ∧ c ≠ '\\') :
    lex ('#' :: (line ++ ['\n'])) = [⟨'#' :: line, 1, false, none⟩] ∧ StmtText ('#' :: (line ++ ['\n'])) := by
  obtain ⟨st', h1, h2, h3, h4⟩ := comment_line_run line ({ token := c!"#", lexState := .inComment, nextTokenIsDirective := false } : LexSt) rfl rfl rfl h
  have hs : lexStep {} '#' = ([], some { token := c!"#", lexState := .inComment, nextTokenIsDirective := false }) := by decide +kernel
  have hr : lexRun {} ('#' :: (line ++ ['\n'])) = ([⟨'#' :: line, 1, false, none⟩], some st') := by
    rw [lexRun, hs]
    simp only [h1, List.nil_append]
    rfl
  have e : lex ('#' :: (line ++ ['\n'])) = [⟨'#' :: line, 1, false, none⟩] := by rw [lex_run hr, h4, List.append_nil]
  have hc : CommentTok ⟨'#' :: line, 1, false, none⟩ line := ⟨rfl, rfl⟩
  have hsh : Shape (lex ('#' :: (line ++ ['\n']))) := by rw [e]; exact .comment hc .nil
  refine ⟨e, .inl ⟨.inr ⟨'#' :: line, rfl⟩, ?_⟩, ?_, hsh⟩
  · rw [e]
    rw [e] at hsh
    exact hsh.at_statement
  · rw [e]; simp

/-- In a block, a directive is exchanged for a block and a comment. -/
example : let o := { exOpts with parseComments := true, singleFile := true }
    let pre := c!"a b;\nhttp{\n"; let s := c!"root /r;\n"; let s' := c!"server{x;}\n# y\n"; let post := c!"c d;}\n"
    Edit (exEnv [(c!"/e/n", pre ++ (s' ++ post))]) (exEnv [(c!"/e/n", pre ++ (s ++ post))]) 2 c!"/e/n" o { runes := pre ++ (s ++ post) } { runes := pre ++ (s' ++ post) } pre s s' post
      [dir c!"a" 1 [c!"b"], blk c!"http" 2 [] [dir c!"root" 3 [c!"/r"], dir c!"c" 4 [c!"d"]]] ∧
    contextAt ((lex pre).filter (·.error == none)) = [c!"http"] ∧
    Parse (exEnv [(c!"/e/n", pre ++ (s' ++ post))]) 2 c!"/e/n" o =
      .ok (okPayload [(c!"/e/n", [dir c!"a" 1 [c!"b"], blk c!"http" 2 [] [blk c!"server" 3 [] [dir c!"x" 3 []], ⟨c!"#", 4, [], [], none, none, some c!" y", false⟩, dir c!"c" 5 [c!"d"]]])]) := by
  intro o pre s s' post
  have hw : ∀ v line, (⟨v, line, false, none⟩ : Tok).isTerm = false ∧ (⟨v, line, false, none⟩ : Tok).isCommentTok = false →
      WordTok ⟨v, line, false, none⟩ := fun _ _ h => wordTok_iff.mpr h
  have e1 : lex s = [⟨c!"root", 1, false, none⟩, ⟨c!"/r", 1, false, none⟩, ⟨c!";", 1, false, none⟩] := by decide +kernel
  have e2 : lex s' = [⟨c!"server", 1, false, none⟩, ⟨c!"{", 1, false, none⟩, ⟨c!"x", 1, false, none⟩, ⟨c!";", 1, false, none⟩, ⟨c!"}", 1, false, none⟩,
    ⟨c!"# y", 2, false, none⟩] := by decide +kernel
  have e3 : (lex pre).filter (·.error == none) = [⟨c!"a", 1, false, none⟩, ⟨c!"b", 1, false, none⟩, ⟨c!";", 1, false, none⟩, ⟨c!"http", 2, false, none⟩] ++ [⟨c!"{", 2, false, none⟩] := by
    decide +kernel
  have e4 : lex (pre ++ (s ++ post)) = [⟨c!"a", 1, false, none⟩, ⟨c!"b", 1, false, none⟩, ⟨c!";", 1, false, none⟩, ⟨c!"http", 2, false, none⟩, ⟨c!"{", 2, false, none⟩,
    ⟨c!"root", 3, false, none⟩, ⟨c!"/r", 3, false, none⟩, ⟨c!";", 3, false, none⟩, ⟨c!"c", 4, false, none⟩, ⟨c!"d", 4, false, none⟩, ⟨c!";", 4, false, none⟩,
    ⟨c!"}", 4, false, none⟩] := by decide +kernel
  have h1 : Shape (lex s) := by
    rw [e1]
    exact .simple (mid := [⟨c!"/r", 1, false, none⟩]) (hw _ _ (by decide)) (.word (hw _ _ (by decide)) .nil) ⟨rfl, rfl⟩ .nil
  have h2 : Shape (lex s') := by
    rw [e2]
    exact .block (mid := []) (inner := [⟨c!"x", 1, false, none⟩, ⟨c!";", 1, false, none⟩]) (hw _ _ (by decide)) .nil ⟨rfl, rfl⟩
      (.simple (mid := []) (hw _ _ (by decide)) .nil ⟨rfl, rfl⟩ .nil) ⟨rfl, rfl⟩ (.comment (text := c!" y") ⟨rfl, rfl⟩ .nil)
  have h4 : Shape (lex (pre ++ (s ++ post))) := by
    rw [e4]
    exact .simple (mid := [⟨c!"b", 1, false, none⟩]) (hw _ _ (by decide)) (.word (hw _ _ (by decide)) .nil) ⟨rfl, rfl⟩
      (.block (mid := []) (inner := [⟨c!"root", 3, false, none⟩, ⟨c!"/r", 3, false, none⟩, ⟨c!";", 3, false, none⟩, ⟨c!"c", 4, false, none⟩, ⟨c!"d", 4, false, none⟩,
        ⟨c!";", 4, false, none⟩]) (toks := []) (hw _ _ (by decide)) .nil ⟨rfl, rfl⟩
        (.simple (mid := [⟨c!"/r", 3, false, none⟩]) (hw _ _ (by decide)) (.word (hw _ _ (by decide)) .nil) ⟨rfl, rfl⟩
          (.simple (mid := [⟨c!"d", 4, false, none⟩]) (hw _ _ (by decide)) (.word (hw _ _ (by decide)) .nil) ⟨rfl, rfl⟩ .nil)) ⟨rfl, rfl⟩ .nil)
  have at' : ∀ {x : Str}, Shape (lex x) → (∀ t ∈ lex x, t.error = none) → AtStatement ((lex x).filter (·.error == none)) := by
    intro x hx he
    rw [List.filter_eq_self.mpr fun t ht => by rw [he t ht]; rfl]
    exact hx.at_statement
  have n1 : ∀ t ∈ lex s, t.error = none := by rw [e1]; decide
  have n2 : ∀ t ∈ lex s', t.error = none := by rw [e2]; decide
  refine ⟨⟨rfl, rfl, ⟨fun l => .refl l, rfl, .inl rfl, rfl⟩, ⟨fun l => .refl l, rfl, .inl rfl, rfl⟩, rfl, rfl, ?_, ⟨?_, n1, h1⟩, ⟨?_, n2, h2⟩, le_refl _, h4.starts, h4.ends,
    by decide +kernel⟩, by decide +kernel, by decide +kernel⟩
  · exact .inl ⟨.inr ⟨c!"a b;\nhttp{", rfl⟩, by rw [e3]; exact at_mark (.inr (.inl ⟨rfl, rfl⟩)) _⟩
  · exact .inl ⟨.inr ⟨c!"root /r;", rfl⟩, at' h1 n1⟩
  · exact .inl ⟨.inr ⟨c!"server{x;}\n# y", rfl⟩, at' h2 n2⟩

/-- A directive that is not allowed in this block is added: one error, on its line, and otherwise the tree of the old file. -/
example : Parse (exEnv [(c!"/e/n", c!"http{\n" ++ (c!"" ++ c!"root /r;}\n"))]) 2 c!"/e/n" exOpts =
      .ok (okPayload [(c!"/e/n", [blk c!"http" 1 [] [dir c!"root" 2 [c!"/r"]]])]) ∧
    Parse (exEnv [(c!"/e/n", c!"http{\n" ++ (c!"user x;\n" ++ c!"root /r;}\n"))]) 2 c!"/e/n" exOpts =
      .ok (badPayload c!"/e/n" 2 (serr c!"\"user\" directive is not allowed here" c!"/e/n" 2 c!"user x" c!"http") [blk c!"http" 1 [] [dir c!"root" 3 [c!"/r"]]]) :=
  ⟨by decide +kernel, by decide +kernel⟩

/-- The place matters: the trees of the two files differ there, and nowhere else. -/
example : ¬ Exchanged 0 [dir c!"a" 0 []] [dir c!"b" 0 []] [dir c!"c" 0 []] [dir c!"d" 0 []] := by
  intro h
  generalize e1 : [dir c!"c" 0 []] = l1 at h
  generalize e2 : [dir c!"d" 0 []] = l2 at h
  cases h with
  | @here before after =>
    cases before with
    | nil => simp [dir] at e1
    | cons a before => simp at e1
  | @inside before d b b' c after _ =>
    cases before with
    | nil => simp [dir] at e1
    | cons a before => simp at e1

/-- A line that is commented out. -/
example : lex c!"#listen 80;\n" = [⟨c!"#listen 80;", 1, false, none⟩] := (C96_line (line := c!"listen 80;") (by decide)).1

end Verif
