import Verif.Model.ParseChan
import Verif.Proofs.ParseTop
import Verif.Proofs.Grammar
import Verif.Proofs.Visits
/-!
# Lemmas on the parser that receives from channels
-/
namespace Verif

/-! ## The parser that receives tokens is the parser on lists -/

/-- The parser in state `s`, with the tokens `toks` to come, gets to the state `s'`, with `toks'` to come. -/
inductive Feeds (env : Env) (o : ParseOptions) (configDir file : Str) : ParserSt → List Tok → ParserSt → List Tok → Prop where
  | refl (s toks) : Feeds env o configDir file s toks s toks
  | tok {s t toks s' toks'} : (∀ r ps, s ≠ .done r ps) → Feeds env o configDir file (receive env o configDir file s (some t)) toks s' toks' →
      Feeds env o configDir file s (t :: toks) s' toks'
  | eof {s s' toks'} : (∀ r ps, s ≠ .done r ps) → Feeds env o configDir file (receive env o configDir file s none) [] s' toks' →
      Feeds env o configDir file s [] s' toks'

theorem Feeds.trans {env : Env} {o : ParseOptions} {configDir file : Str} {a b c : ParserSt} {x y z : List Tok}
    (h1 : Feeds env o configDir file a x b y) (h2 : Feeds env o configDir file b y c z) : Feeds env o configDir file a x c z := by
  induction h1 with
  | refl => exact h2
  | tok hd _ ih => exact .tok hd (ih h2)
  | eof hd _ ih => exact .eof hd (ih h2)

/-- The parser is deterministic: what it comes to is on the way to where it ends. -/
theorem Feeds.rest {env : Env} {o : ParseOptions} {configDir file : Str} {a b : ParserSt} {x y z : List Tok} {r : Res (List Directive)} {ps : PS}
    (h1 : Feeds env o configDir file a x b y) (h2 : Feeds env o configDir file a x (.done r ps) z) : Feeds env o configDir file b y (.done r ps) z := by
  induction h1 with
  | refl => exact h2
  | tok hd _ ih =>
    cases h2 with
    | refl => exact absurd rfl (hd r ps)
    | tok _ h => exact ih h
  | eof hd _ ih =>
    cases h2 with
    | refl => exact absurd rfl (hd r ps)
    | eof _ h => exact ih h

theorem Feeds.unique {env : Env} {o : ParseOptions} {configDir file : Str} {a : ParserSt} {x y z : List Tok} {r r' : Res (List Directive)} {ps ps' : PS}
    (h1 : Feeds env o configDir file a x (.done r ps) y) (h2 : Feeds env o configDir file a x (.done r' ps') z) : r = r' ∧ ps = ps' ∧ y = z := by
  have := h1.rest h2
  generalize hs : ParserSt.done r ps = s at this
  generalize hs' : ParserSt.done r' ps' = s' at this
  cases this with
  | refl => rw [← hs] at hs'; cases hs'; exact ⟨rfl, rfl, rfl⟩
  | tok hd => exact absurd hs.symm (hd r ps)
  | eof hd => exact absurd hs.symm (hd r ps)

theorem readArgs_feeds (env : Env) (o : ParseOptions) (configDir file : Str) (t : Tok) (ctx : Ctx) (parsed : List Directive) (ps : PS) (stack : List Frame)
    (toks : List Tok) : ∀ as cs,
    match readArgs o.parseComments as cs toks with
    | some (as', cs', term, rest) =>
      Feeds env o configDir file (.args t as cs ctx parsed ps stack) toks (endStmt env o configDir file t as' cs' term ctx parsed ps stack) rest
    | none => Feeds env o configDir file (.args t as cs ctx parsed ps stack) toks (.done (.err (prematureError file ctx.vals t.line)) ps) [] := by
  induction toks with
  | nil => intro as cs; exact .eof (by simp) (.refl _ _)
  | cons t' toks ih =>
    intro as cs
    rw [readArgs]
    by_cases h1 : t'.isTerm = true
    · simp only [h1, if_true]
      refine .tok (by simp) ?_
      simp only [receive, h1, if_true]
      exact .refl _ _
    by_cases h2 : t'.isCommentTok = true
    · by_cases h3 : o.parseComments = true
      · have := ih as (cs ++ [t'.value.drop 1])
        simp only [h1, h2, h3, if_true, Bool.not_true, Bool.false_eq_true, if_false] at this ⊢
        split at this <;>
        · refine .tok (by simp) ?_
          simpa only [receive, h1, h2, h3, if_true, Bool.not_true, Bool.false_eq_true, if_false] using this
      · have := ih as cs
        simp only [h1, h2, h3, if_true, Bool.not_true, Bool.false_eq_true, if_false] at this ⊢
        split at this <;>
        · refine .tok (by simp) ?_
          simpa only [receive, h1, h2, h3, if_true, Bool.not_true, Bool.false_eq_true, if_false] using this
    · have := ih (as ++ [t'.value]) cs
      simp only [h1, h2, if_true, Bool.not_false, Bool.false_eq_true, if_false] at this ⊢
      split at this <;>
      · refine .tok (by simp) ?_
        simpa only [receive, h1, h2, if_true, Bool.not_false, Bool.false_eq_true, if_false] using this

theorem consume_feeds (env : Env) (o : ParseOptions) (configDir file : Str) (ctx : Ctx) (parsed : List Directive) (ps : PS) (stack : List Frame)
    (toks : List Tok) : ∀ depth, Feeds env o configDir file (.skip depth ctx parsed ps stack) toks (.loop ctx parsed ps stack) (consume depth toks) := by
  induction toks with
  | nil =>
    intro depth
    induction depth with
    | zero => exact .eof (by simp) (.refl _ _)
    | succ d ih => exact .eof (by simp) ih
  | cons t toks ih =>
    intro depth
    refine .tok (by simp) ?_
    rw [consume.eq_def]
    have hr : receive env o configDir file (.skip depth ctx parsed ps stack) (some t) =
        if t.error.isSome || t.is c!"}" then
          match depth with
          | 0 => .loop ctx parsed ps stack
          | d + 1 => .skip d ctx parsed ps stack
        else if t.is c!"{" then .skip (depth + 1) ctx parsed ps stack
        else .skip depth ctx parsed ps stack := by
      cases depth <;> rfl
    rw [hr]
    simp only
    cases t.error.isSome || t.is c!"}" with
    | true =>
      cases depth with
      | zero => exact .refl _ _
      | succ d => exact ih d
    | false =>
      simp only [Bool.false_eq_true, if_false]
      cases t.is c!"{" with
      | true => exact ih _
      | false => exact ih _

theorem skipBlock_feeds (env : Env) (o : ParseOptions) (configDir file : Str) (ctx : Ctx) (parsed : List Directive) (ps : PS) (stack : List Frame)
    (term : Tok) (toks : List Tok) :
    Feeds env o configDir file (if term.is c!"{" then .skip 0 ctx parsed ps stack else .loop ctx parsed ps stack) toks (.loop ctx parsed ps stack)
      (skipBlock term toks) := by
  unfold skipBlock
  split
  · exact consume_feeds ..
  · exact .refl _ _

/-- Where the outcome of a round leads to. -/
def Leads (env : Env) (o : ParseOptions) (configDir file : Str) (ctx : Ctx) (parsed : List Directive) (stack : List Frame) (s : ParserSt) (toks : List Tok) :
    Step → Prop
  | .stop toks' ps' => Feeds env o configDir file s toks (returnOk o file parsed ps' stack) toks'
  | .fail e toks' ps' => Feeds env o configDir file s toks (.done (failRes e) ps') toks'
  | .next new toks' ps' => Feeds env o configDir file s toks (.loop ctx (parsed ++ new) ps' stack) toks'
  | .block stmt cs toks' ps' =>
    Feeds env o configDir file s toks (.loop (enterBlockCtx stmt ctx ps').1 [] (enterBlockCtx stmt ctx ps').2 (⟨ctx, parsed, stmt, cs⟩ :: stack)) toks'

theorem stepStmt_leads (env : Env) (o : ParseOptions) (configDir file : Str) (t : Tok) (as cs : List Str) (term : Tok) (ctx : Ctx) (parsed : List Directive)
    (ps : PS) (stack : List Frame) (toks : List Tok) :
    Leads env o configDir file ctx parsed stack (endStmt env o configDir file t as cs term ctx parsed ps stack) toks
      (stepStmt env o configDir file ctx ps (baseStmt o file t as) cs term toks) := by
  unfold endStmt stepStmt baseStmt
  simp only
  cases mapCtx ctx.vals with
  | some m =>
    simp only
    generalize analyzeMapBody file _ term.value m = x
    cases x with
    | some mapErr =>
      cases o.stopParsingOnError with
      | true => exact Feeds.refl _ _
      | false =>
        simp only [Leads, List.append_nil, Bool.false_eq_true, if_false]
        exact skipBlock_feeds ..
    | none => exact Feeds.refl _ _
  | none =>
    simp only
    cases contains o.ignoreDirectives t.value with
    | true =>
      simp only [Leads, List.append_nil, if_true]
      exact skipBlock_feeds ..
    | false =>
      simp only [Bool.false_eq_true, if_false]
      generalize analyze file _ term.value ctx.vals o = x
      cases x with
      | some perr =>
        cases o.stopParsingOnError with
        | true => exact Feeds.refl _ _
        | false =>
          simp only [Bool.not_false, if_true]
          cases hasSuffix perr.what notTerminated with
          | true =>
            simp only [if_true]
            cases term.value != c!"}" && !term.quoted with
            | true =>
              simp only [Leads, List.append_nil, if_true]
              exact consume_feeds ..
            | false => exact Feeds.refl _ _
          | false =>
            simp only [Leads, List.append_nil, Bool.false_eq_true, if_false]
            exact Feeds.refl _ _
      | none =>
        simp only
        generalize prepIf _ = y
        cases y with
        | none => exact Feeds.refl _ _
        | some stmt =>
          simp only
          rcases doInclude_cases env o configDir file ctx stmt ps with ⟨stmt', ps', h⟩ | ⟨e, ps', h⟩
          · rw [h]
            simp only
            cases term.is c!"{" with
            | true => exact Feeds.refl _ _
            | false =>
              simp only [Leads, List.append_assoc, Bool.false_eq_true, if_false]
              exact Feeds.refl _ _
          · rw [h]; exact Feeds.refl _ _

theorem step_leads (env : Env) (o : ParseOptions) (configDir file : Str) (ctx : Ctx) (t : Tok) (toks : List Tok) (parsed : List Directive) (ps : PS)
    (stack : List Frame) :
    Leads env o configDir file ctx parsed stack (.loop ctx parsed ps stack) (t :: toks) (step env o configDir file ctx t toks ps) := by
  have pre : ∀ {s : ParserSt} {x : Step}, receive env o configDir file (.loop ctx parsed ps stack) (some t) = s → Leads env o configDir file ctx parsed stack s toks x →
      Leads env o configDir file ctx parsed stack (.loop ctx parsed ps stack) (t :: toks) x := by
    intro s x e h
    subst e
    cases x <;> exact .tok (by simp) h
  unfold step
  cases he : t.error with
  | some e => exact pre (s := .done (.err (tokenError file ctx.vals t e)) ps) (by simp [receive, he]) (.refl _ _)
  | none =>
    simp only
    split
    · rename_i hc
      exact pre (s := returnOk o file parsed ps stack) (by simp [receive, he, hc]) (.refl _ _)
    · rename_i hc
      split
      · rename_i hk
        by_cases hp : o.parseComments = true
        · exact pre (s := .loop ctx (parsed ++ [commentStmt o file t]) ps stack) (by simp [receive, he, hc, hk, hp, commentStmt]) (by simp only [hp, if_true]; exact .refl _ _)
        · exact pre (s := .loop ctx parsed ps stack) (by simp [receive, he, hc, hk, hp]) (by simp only [hp]; simp only [Leads, if_false, List.append_nil, Bool.false_eq_true]; exact .refl _ _)
      · rename_i hk
        refine pre (s := .args t [] [] ctx parsed ps stack) (by simp [receive, he, hc, hk]) ?_
        have := readArgs_feeds env o configDir file t ctx parsed ps stack toks [] []
        split
        · rename_i e; rw [e] at this; exact this
        · rename_i as cs term rest e; rw [e] at this
          have h2 := stepStmt_leads env o configDir file t as cs term ctx parsed ps stack rest
          revert h2
          generalize stepStmt env o configDir file ctx ps _ _ _ _ = x
          intro h2
          cases x <;> exact this.trans h2

theorem RunOk.feeds {env : Env} {o : ParseOptions} {configDir file : Str} {ctx : Ctx} {toks : List Tok} {ps : PS} {ds : List Directive} {toks' : List Tok} {ps' : PS}
    (h : RunOk env o configDir file ctx toks ps ds toks' ps') (parsed : List Directive) (stack : List Frame) :
    Feeds env o configDir file (.loop ctx parsed ps stack) toks (returnOk o file (parsed ++ ds) ps' stack) toks' := by
  induction h generalizing parsed stack with
  | eof => rw [List.append_nil]; exact .eof (by simp) (.refl _ _)
  | stop ctx t toks ps toks' ps' hs =>
    have := step_leads env o configDir file ctx t toks parsed ps stack
    rw [hs] at this; rw [List.append_nil]; exact this
  | next ctx t toks ps new toks1 ps1 ds toks' ps' hs _ ih =>
    have := step_leads env o configDir file ctx t toks parsed ps stack
    rw [hs] at this
    rw [← List.append_assoc]
    exact Feeds.trans this (ih _ _)
  | block ctx t toks ps stmt comments toks1 ps1 b toks2 ps2 ds toks' ps' hs _ _ ih1 ih2 =>
    have := step_leads env o configDir file ctx t toks parsed ps stack
    rw [hs] at this
    refine Feeds.trans this ((ih1 _ _).trans ?_)
    have := ih2 (parsed ++ [{ stmt with block := some b }] ++ commentDirectives stmt.line (if o.combineConfigs then file else []) comments) stack
    simpa [returnOk] using this

theorem RunFail.feeds {env : Env} {o : ParseOptions} {configDir file : Str} {ctx : Ctx} {toks : List Tok} {ps : PS} {e : Option GoErr} {toks' : List Tok} {ps' : PS}
    (h : RunFail env o configDir file ctx toks ps e toks' ps') (parsed : List Directive) (stack : List Frame) :
    Feeds env o configDir file (.loop ctx parsed ps stack) toks (.done (failRes e) ps') toks' := by
  induction h generalizing parsed stack with
  | fail ctx t toks ps e toks' ps' hs =>
    have := step_leads env o configDir file ctx t toks parsed ps stack
    rw [hs] at this; exact this
  | next ctx t toks ps new toks1 ps1 e toks' ps' hs _ ih =>
    have := step_leads env o configDir file ctx t toks parsed ps stack
    rw [hs] at this
    exact Feeds.trans this (ih _ _)
  | inside ctx t toks ps stmt comments toks1 ps1 e toks' ps' hs h1 ih1 =>
    have := step_leads env o configDir file ctx t toks parsed ps stack
    rw [hs] at this
    exact Feeds.trans this (ih1 _ _)
  | after ctx t toks ps stmt comments toks1 ps1 b toks2 ps2 e toks' ps' hs h1 h2 ih2 =>
    have := step_leads env o configDir file ctx t toks parsed ps stack
    rw [hs] at this
    refine Feeds.trans this ((h1.feeds _ _).trans ?_)
    exact ih2 _ _

/-- The parser that receives the tokens one at a time ends with the result of `parse`, and has received all but the tokens that `parse` leaves. -/
theorem parse_feeds (env : Env) (o : ParseOptions) (configDir file : Str) (fuel : Nat) (ctx : Ctx) (toks : List Tok) (parsed : List Directive) (ps : PS)
    (hf : toks.length < fuel) {r : Res (List Directive)} {toks' : List Tok} {ps' : PS}
    (h : parse env o configDir file fuel ctx toks parsed ps = (r, toks', ps')) :
    Feeds env o configDir file (.loop ctx parsed ps []) toks (.done r ps') toks' := by
  obtain ⟨u, p, -, h1 | h1⟩ := parse_run env o configDir file fuel ctx toks parsed ps hf
  · obtain ⟨ds, h2, h3⟩ := h1
    rw [h] at h3
    cases h3
    exact h2.feeds parsed []
  · obtain ⟨e, h2, h3⟩ := h1
    rw [h] at h3
    cases h3
    exact h2.feeds parsed []

/-! ## The goroutines -/

/-- The tokens of a lexer that were not received yet. -/
def LexerG.unread (g : LexerG) : List Tok := g.buf ++ g.pending.toList ++ g.rest

/-- A lexer closes its channel at the end; its buffer is not overfull. -/
structure LexerG.WF (cap : Nat) (g : LexerG) : Prop where
  ended : g.closed = true → g.rest = [] ∧ g.pending = none
  room : g.buf.length ≤ cap

theorem LexerG.WF.start (cap : Nat) (toks : List Tok) : (LexerG.start toks).WF cap := ⟨by simp [LexerG.start], by simp [LexerG.start]⟩

theorem LexerG.unread_start (toks : List Tok) : (LexerG.start toks).unread = toks := by simp [LexerG.start, LexerG.unread]

theorem LexerStep.keeps {cap : Nat} {g g' : LexerG} (h : LexerStep cap g g') (hw : g.WF cap) : g'.WF cap ∧ g'.unread = g.unread := by
  cases h with
  | compute t rest buf => exact ⟨⟨by simp, hw.room⟩, by simp [LexerG.unread]⟩
  | send t rest buf hl => exact ⟨⟨by simp, by simp; omega⟩, by simp [LexerG.unread]⟩
  | close buf => exact ⟨⟨by simp, hw.room⟩, by simp [LexerG.unread]⟩

theorem Receives.some_unread {cap : Nat} {g g' : LexerG} {t : Tok} (h : Receives g (some t) g') (hw : g.WF cap) : g'.WF cap ∧ g.unread = t :: g'.unread := by
  cases h with
  | buffered t rest pending buf closed => exact ⟨⟨hw.ended, by have := hw.room; simp at this ⊢; omega⟩, by simp [LexerG.unread]⟩
  | handoff t rest => exact ⟨⟨by simp, by simp⟩, by simp [LexerG.unread]⟩

theorem Receives.none_unread {cap : Nat} {g g' : LexerG} (h : Receives g none g') (hw : g.WF cap) : g' = g ∧ g.unread = [] := by
  cases h with
  | closed rest pending =>
    obtain ⟨h1, h2⟩ := hw.ended rfl
    simp only at h1 h2
    subst h1 h2
    exact ⟨rfl, rfl⟩

/-! ## The program does what `Parse` does -/

/-- parse.go:190-200: what `Parse` makes of the result of its loop. -/
def topRes (env : Env) (o : ParseOptions) : Res (List Config) × PS → Res Payload
  | (.ok configs, ps) => finish env o ps configs
  | (.err e, _) => .err e
  | (.panic, _) => .panic
  | (.fuel, _) => .fuel

theorem Parse_topRes (env : Env) (fuel : Nat) (filename : Str) (o : ParseOptions) :
    Parse env fuel filename o = topRes env o (parseFiles env o (env.dir filename) fuel (initPS filename) []) := by
  unfold Parse topRes finish
  rfl

/-- The state in which a file is parsed (with the tokens that are left at the end). -/
structure Opened (env : Env) (o : ParseOptions) (configDir : Str) (ps : PS) (path : Str) (ctx : Ctx) (toks : List Tok) (ps0 : PS) : Prop where
  eq : ∃ rest data, ps.includes = ⟨path, ctx⟩ :: rest ∧ env.openFile ps.opens path = .ok data ∧ toks = fileToks o data ∧ ps0 = startFile ps rest

/-- A round of the loop of `Parse`. -/
theorem parseFiles_file {env : Env} {o : ParseOptions} {configDir : Str} {ps : PS} {path : Str} {ctx : Ctx} {toks : List Tok} {ps0 : PS}
    (h : Opened env o configDir ps path ctx toks ps0) {configs : List Config} {r : Res (List Directive)} {u : List Tok} {ps' : PS}
    (hp : parse env o configDir path (toks.length + 1) ctx toks [] ps0 = (r, u, ps')) (fuel : Nat) :
    match afterFile o path configs ps' r with
    | .next ps2 configs2 => parseFiles env o configDir (fuel + 1) ps configs = parseFiles env o configDir fuel ps2 configs2
    | .returned q => topRes env o (parseFiles env o configDir (fuel + 1) ps configs) = q
    | .file _ _ _ => False := by
  obtain ⟨rest, data, h1, h2, rfl, rfl⟩ := h.eq
  unfold startFile fileToks at hp
  rw [parseFiles, h1]
  simp only [h2, hp]
  cases r with
  | ok parsed => rfl
  | err e =>
    simp only [afterFile]
    split
    · rename_i h; split at h <;> cases h; rename_i h; simp [h]
    · rename_i h; split at h <;> cases h; rename_i h; simp [h, topRes]
    · rename_i h; split at h <;> cases h
  | panic => rfl
  | fuel => rfl

/-- The tokens that the parser leaves unread, file by file. -/
def unreadFiles (env : Env) (o : ParseOptions) (configDir : Str) : (fuel : Nat) → PS → List Config → List (List Tok)
  | 0, _, _ => []
  | fuel + 1, ps, configs =>
    match ps.includes with
    | [] => []
    | incl :: rest =>
      match env.openFile ps.opens incl.path with
      | .error _ => []
      | .ok data =>
        match parse env o configDir incl.path ((fileToks o data).length + 1) incl.ctx (fileToks o data) [] (startFile ps rest) with
        | (r, u, ps') =>
          match afterFile o incl.path configs ps' r with
          | .next ps2 configs2 => u :: unreadFiles env o configDir fuel ps2 configs2
          | _ => [u]

/-! ### The number of steps -/

/-- The steps left to a lexer. -/
def LexerG.pot (g : LexerG) : Nat := 2 * g.rest.length + g.pending.toList.length + (if g.closed then 0 else 1)

theorem LexerStep.pot {cap : Nat} {g g' : LexerG} (h : LexerStep cap g g') : g'.pot < g.pot := by
  cases h <;> simp [LexerG.pot] <;> omega

theorem Receives.pot {g g' : LexerG} {t : Option Tok} (h : Receives g t g') : g'.pot ≤ g.pot := by
  cases h <;> simp [LexerG.pot]

/-- The calls that are active, and the parser. -/
def ParserSt.size : ParserSt → Nat
  | .loop _ _ _ stack => stack.length + 1
  | .args _ _ _ _ _ _ stack => stack.length + 1
  | .skip depth _ _ _ stack => depth + stack.length + 2
  | .done _ _ => 0

theorem returnOk_size (o : ParseOptions) (file : Str) (parsed : List Directive) (ps : PS) (stack : List Frame) :
    (returnOk o file parsed ps stack).size ≤ stack.length := by
  cases stack <;> simp [returnOk, ParserSt.size]

theorem endStmt_size (env : Env) (o : ParseOptions) (configDir file : Str) (t : Tok) (as cs : List Str) (term : Tok) (ctx : Ctx) (parsed : List Directive) (ps : PS)
    (stack : List Frame) : (endStmt env o configDir file t as cs term ctx parsed ps stack).size ≤ stack.length + 2 := by
  have hr := fun parsed ps => returnOk_size o file parsed ps stack
  unfold endStmt
  simp only
  repeat' split
  all_goals first
    | (simp [ParserSt.size]; done)
    | (simp [ParserSt.size]; omega)
    | exact Nat.le_succ_of_le (Nat.le_succ_of_le (hr _ _))

theorem receive_some_size (env : Env) (o : ParseOptions) (configDir file : Str) (st : ParserSt) (t : Tok) :
    (receive env o configDir file st (some t)).size ≤ st.size + 1 := by
  cases st with
  | loop ctx parsed ps stack =>
    have hr := returnOk_size o file parsed ps stack
    unfold receive
    simp only
    repeat' split
    all_goals first
      | exact Nat.le_trans hr (by simp only [ParserSt.size]; omega)
      | simp [ParserSt.size]
  | args t as cs ctx parsed ps stack =>
    unfold receive
    simp only
    repeat' split
    · exact endStmt_size ..
    all_goals simp [ParserSt.size]
  | skip depth ctx parsed ps stack =>
    cases depth <;>
    · unfold receive
      simp only
      repeat' split
      all_goals simp [ParserSt.size]
      all_goals omega
  | done => simp [receive]

theorem receive_none_size (env : Env) (o : ParseOptions) (configDir file : Str) (st : ParserSt) (h : ∀ r ps, st ≠ .done r ps) :
    (receive env o configDir file st none).size < st.size := by
  cases st with
  | loop ctx parsed ps stack =>
    have hr := returnOk_size o file parsed ps stack
    exact Nat.lt_succ_of_le hr
  | args => simp [receive, ParserSt.size]
  | skip depth ctx parsed ps stack => cases depth <;> simp [receive, ParserSt.size]
  | done r ps => exact absurd rfl (h r ps)

/-- The steps that the loop of `Parse` and the lexers it starts can make. -/
def filesPot (env : Env) (o : ParseOptions) (configDir : Str) : (fuel : Nat) → PS → List Config → Nat
  | 0, _, _ => 0
  | fuel + 1, ps, configs =>
    match ps.includes with
    | [] => 1
    | incl :: rest =>
      match env.openFile ps.opens incl.path with
      | .error _ => 1
      | .ok data =>
        match parse env o configDir incl.path ((fileToks o data).length + 1) incl.ctx (fileToks o data) [] (startFile ps rest) with
        | (r, _, ps') =>
          4 * (fileToks o data).length + 4 +
          match afterFile o incl.path configs ps' r with
          | .next ps2 configs2 => filesPot env o configDir fuel ps2 configs2
          | _ => 0

/-- The steps that are left to `Parse` after the file. -/
def afterPot (env : Env) (o : ParseOptions) (configDir : Str) (fuel : Nat) : Main → Nat
  | .next ps configs => filesPot env o configDir fuel ps configs
  | _ => 0

theorem filesPot_file {env : Env} {o : ParseOptions} {configDir : Str} {ps : PS} {path : Str} {ctx : Ctx} {toks : List Tok} {ps0 : PS}
    (h : Opened env o configDir ps path ctx toks ps0) {configs : List Config} {r : Res (List Directive)} {u : List Tok} {ps' : PS}
    (hp : parse env o configDir path (toks.length + 1) ctx toks [] ps0 = (r, u, ps')) (fuel : Nat) :
    filesPot env o configDir (fuel + 1) ps configs = 4 * toks.length + 4 + afterPot env o configDir fuel (afterFile o path configs ps' r) := by
  obtain ⟨rest, data, h1, h2, rfl, rfl⟩ := h.eq
  rw [filesPot, h1]
  simp only [h2, hp]
  cases afterFile o path configs ps' r <;> rfl

theorem unreadFiles_file {env : Env} {o : ParseOptions} {configDir : Str} {ps : PS} {path : Str} {ctx : Ctx} {toks : List Tok} {ps0 : PS}
    (h : Opened env o configDir ps path ctx toks ps0) {configs : List Config} {r : Res (List Directive)} {u : List Tok} {ps' : PS}
    (hp : parse env o configDir path (toks.length + 1) ctx toks [] ps0 = (r, u, ps')) (fuel : Nat) :
    unreadFiles env o configDir (fuel + 1) ps configs = u :: match afterFile o path configs ps' r with
      | .next ps2 configs2 => unreadFiles env o configDir fuel ps2 configs2
      | _ => [] := by
  obtain ⟨rest, data, h1, h2, rfl, rfl⟩ := h.eq
  rw [unreadFiles, h1]
  simp only [h2, hp]
  cases afterFile o path configs ps' r <;> rfl

/-- With more fuel than needed the numbers are the same. -/
theorem filesPot_enough (env : Env) (o : ParseOptions) (configDir : Str) (d : Nat) : ∀ (fuel : Nat) (ps : PS) (configs : List Config),
    (parseFiles env o configDir fuel ps configs).1 ≠ .fuel → filesPot env o configDir (fuel + d) ps configs = filesPot env o configDir fuel ps configs := by
  intro fuel
  induction fuel with
  | zero => intro ps configs h; simp [parseFiles] at h
  | succ fuel ih =>
    intro ps configs h
    rw [show fuel + 1 + d = (fuel + d) + 1 by omega]
    cases hi : ps.includes with
    | nil => rw [filesPot, filesPot, hi]
    | cons incl rest =>
      cases ho : env.openFile ps.opens incl.path with
      | error e => rw [filesPot, filesPot, hi]; simp only [ho]
      | ok data =>
        have hop : Opened env o configDir ps incl.path incl.ctx (fileToks o data) (startFile ps rest) := ⟨rest, data, by rw [hi], ho, rfl, rfl⟩
        rcases hp : parse env o configDir incl.path ((fileToks o data).length + 1) incl.ctx (fileToks o data) [] (startFile ps rest) with ⟨r, u, ps'⟩
        rw [filesPot_file hop hp, filesPot_file hop hp]
        have := parseFiles_file hop (configs := configs) hp fuel
        revert this
        generalize afterFile o incl.path configs ps' r = m
        intro this
        cases m with
        | next ps2 configs2 =>
          simp only at this
          rw [this] at h
          simp only [afterPot]
          rw [ih _ _ h]
        | file => rfl
        | returned => rfl

/-! ### The invariant -/

/-- The steps left to the lexers. -/
def lexersPot (gs : List LexerG) : Nat := (gs.map LexerG.pot).sum

/-- `Parse` is at the head of its loop, and `gs` are the lexers of the files before. -/
structure AtNext (env : Env) (o : ParseOptions) (filename : Str) (k n : Nat) (ps : PS) (configs : List Config) (gs : List LexerG) : Prop where
  res : ∀ fuel, parseFiles env o (env.dir filename) (fuel + k) (initPS filename) [] = parseFiles env o (env.dir filename) fuel ps configs
  unread : ∀ fuel, unreadFiles env o (env.dir filename) (fuel + k) (initPS filename) [] =
    (gs.map LexerG.unread).reverse ++ unreadFiles env o (env.dir filename) fuel ps configs
  steps : ∀ fuel, n + filesPot env o (env.dir filename) fuel ps configs + lexersPot gs ≤ filesPot env o (env.dir filename) (fuel + k) (initPS filename) []

/-- `Parse` is in a file, whose lexer is `g`. -/
structure InFile (env : Env) (o : ParseOptions) (filename : Str) (k n : Nat) (path : Str) (configs : List Config) (st : ParserSt) (g : LexerG) (gs : List LexerG)
    (ps : PS) (ctx : Ctx) (toks : List Tok) (ps0 : PS) (r : Res (List Directive)) (u : List Tok) (ps' : PS) : Prop where
  opened : Opened env o (env.dir filename) ps path ctx toks ps0
  parse : parse env o (env.dir filename) path (toks.length + 1) ctx toks [] ps0 = (r, u, ps')
  feeds : Feeds env o (env.dir filename) path (.loop ctx [] ps0 []) toks st g.unread
  res : ∀ fuel, parseFiles env o (env.dir filename) (fuel + k) (initPS filename) [] = parseFiles env o (env.dir filename) fuel ps configs
  unread : ∀ fuel, unreadFiles env o (env.dir filename) (fuel + k) (initPS filename) [] =
    (gs.map LexerG.unread).reverse ++ unreadFiles env o (env.dir filename) fuel ps configs
  steps : ∀ fuel, n + (2 * g.unread.length + st.size + 1) + afterPot env o (env.dir filename) fuel (afterFile o path configs ps' r) + lexersPot (g :: gs) ≤
    filesPot env o (env.dir filename) (fuel + 1 + k) (initPS filename) []

/-- What holds after `n` steps. -/
def Inv (env : Env) (o : ParseOptions) (filename : Str) (cap n : Nat) (s : Sys) : Prop :=
  (∀ g ∈ s.lexers, g.WF cap) ∧
  match s.main with
  | .next ps configs => ∃ k, AtNext env o filename k n ps configs s.lexers
  | .file path configs st => ∃ k g gs ps ctx toks ps0 r u ps', s.lexers = g :: gs ∧ InFile env o filename k n path configs st g gs ps ctx toks ps0 r u ps'
  | .returned q => ∃ k, ∀ fuel, topRes env o (parseFiles env o (env.dir filename) (fuel + k) (initPS filename) []) = q ∧
      unreadFiles env o (env.dir filename) (fuel + k) (initPS filename) [] = (s.lexers.map LexerG.unread).reverse ∧
      n + lexersPot s.lexers ≤ filesPot env o (env.dir filename) (fuel + k) (initPS filename) []

theorem Inv.init (env : Env) (o : ParseOptions) (filename : Str) (cap : Nat) : Inv env o filename cap 0 (.init filename) :=
  ⟨by simp [Sys.init], 0, ⟨fun _ => rfl, fun _ => rfl, fun _ => by simp [Sys.init, lexersPot]⟩⟩

theorem lexersPot_step {cap : Nat} {g g' : LexerG} (h : LexerStep cap g g') (pre post : List LexerG) :
    lexersPot (pre ++ g' :: post) + 1 ≤ lexersPot (pre ++ g :: post) := by
  have := h.pot
  simp [lexersPot]; omega

theorem Inv.step {env : Env} {o : ParseOptions} {filename : Str} {cap n : Nat} {s s' : Sys} (h : LiveStep env o (env.dir filename) cap s s')
    (hi : Inv env o filename cap n s) : Inv env o filename cap (n + 1) s' := by
  obtain ⟨hw, hi⟩ := hi
  cases h with
  | lexer m pre g g' post hl =>
    have hk := hl.keeps (hw g (by simp))
    have hp := lexersPot_step hl pre post
    refine ⟨?_, ?_⟩
    · intro x hx
      rcases List.mem_append.mp hx with hx | hx
      · exact hw x (by simp [hx])
      · rcases List.mem_cons.mp hx with rfl | hx
        · exact hk.1
        · exact hw x (by simp [hx])
    · have e : (pre ++ g' :: post).map LexerG.unread = (pre ++ g :: post).map LexerG.unread := by simp [hk.2]
      cases m with
      | next ps configs =>
        obtain ⟨k, hi⟩ := hi
        refine ⟨k, hi.res, ?_, ?_⟩
        · simp only [e]; exact hi.unread
        · intro fuel; have := hi.steps fuel; simp only at this ⊢; omega
      | file path configs st =>
        obtain ⟨k, g0, gs, ps, ctx, toks, ps0, r, u, ps', hg, hi⟩ := hi
        simp only at hg
        cases pre with
        | nil =>
          simp only [List.nil_append, List.cons.injEq] at hg
          obtain ⟨rfl, rfl⟩ := hg
          refine ⟨k, g', post, ps, ctx, toks, ps0, r, u, ps', rfl, hi.opened, hi.parse, by rw [hk.2]; exact hi.feeds, hi.res, hi.unread, ?_⟩
          intro fuel; have := hi.steps fuel; rw [hk.2]; simp only [List.nil_append] at hp; omega
        | cons p pre =>
          simp only [List.cons_append, List.cons.injEq] at hg
          obtain ⟨rfl, rfl⟩ := hg
          refine ⟨k, p, pre ++ g' :: post, ps, ctx, toks, ps0, r, u, ps', rfl, hi.opened, hi.parse, hi.feeds, hi.res, ?_, ?_⟩
          · have e : (pre ++ g' :: post).map LexerG.unread = (pre ++ g :: post).map LexerG.unread := by simp [hk.2]
            rw [e]; exact hi.unread
          · intro fuel; have := hi.steps fuel; simp only [List.cons_append] at hp; omega
      | returned q =>
        obtain ⟨k, hi⟩ := hi
        refine ⟨k, fun fuel => ?_⟩
        obtain ⟨h1, h2, h3⟩ := hi fuel
        refine ⟨h1, ?_, ?_⟩
        · simp only [e]; exact h2
        · simp only at h3 ⊢; omega
  | openFail ps configs incl rest e gs hinc ho =>
    obtain ⟨k, hi⟩ := hi
    refine ⟨hw, k + 1, fun fuel => ?_⟩
    rw [show fuel + (k + 1) = fuel + 1 + k by omega]
    refine ⟨?_, ?_, ?_⟩
    · rw [hi.res, parseFiles, hinc]; simp only [ho]; rfl
    · rw [hi.unread, unreadFiles, hinc]; simp only [ho, List.append_nil]
    · have := hi.steps (fuel + 1); rw [filesPot, hinc] at this; simp only [ho] at this; simp only; omega
  | openFile ps configs incl rest data gs hinc ho =>
    obtain ⟨k, hi⟩ := hi
    have hop : Opened env o (env.dir filename) ps incl.path incl.ctx (fileToks o data) (startFile ps rest) := ⟨rest, data, by rw [hinc], ho, rfl, rfl⟩
    rcases hp : Verif.parse env o (env.dir filename) incl.path ((fileToks o data).length + 1) incl.ctx (fileToks o data) [] (startFile ps rest) with ⟨r, u, ps'⟩
    refine ⟨?_, k, LexerG.start (fileToks o data), gs, ps, incl.ctx, fileToks o data, startFile ps rest, r, u, ps', rfl, hop, hp, ?_, hi.res, hi.unread, ?_⟩
    · intro g hg
      rcases List.mem_cons.mp hg with rfl | hg
      · exact LexerG.WF.start _ _
      · exact hw g hg
    · rw [LexerG.unread_start]; exact .refl _ _
    · intro fuel
      have := hi.steps (fuel + 1)
      rw [filesPot_file hop hp] at this
      rw [LexerG.unread_start]
      simp only [lexersPot, List.map_cons, List.sum_cons, ParserSt.size, List.length_nil] at this ⊢
      have : (LexerG.start (fileToks o data)).pot = 2 * (fileToks o data).length + 1 := by simp [LexerG.pot, LexerG.start]
      omega
  | finish ps configs gs hinc =>
    obtain ⟨k, hi⟩ := hi
    refine ⟨hw, k + 1, fun fuel => ?_⟩
    rw [show fuel + (k + 1) = fuel + 1 + k by omega]
    refine ⟨?_, ?_, ?_⟩
    · rw [hi.res, parseFiles, hinc]; rfl
    · rw [hi.unread, unreadFiles, hinc]; simp only [List.append_nil]
    · have := hi.steps (fuel + 1); rw [filesPot, hinc] at this; simp only at this ⊢; omega
  | receive path configs st g t g' gs hd hr =>
    obtain ⟨k, g0, gs0, ps, ctx, toks, ps0, r, u, ps', hg, hi⟩ := hi
    simp only [List.cons.injEq] at hg
    obtain ⟨rfl, rfl⟩ := hg
    have hpot := hr.pot
    cases t with
    | some t =>
      obtain ⟨hw', hu⟩ := hr.some_unread (hw g (by simp))
      refine ⟨?_, k, g', gs, ps, ctx, toks, ps0, r, u, ps', rfl, hi.opened, hi.parse, ?_, hi.res, hi.unread, ?_⟩
      · intro x hx
        rcases List.mem_cons.mp hx with rfl | hx
        · exact hw'
        · exact hw x (by simp [hx])
      · refine hi.feeds.trans ?_
        rw [hu]
        exact .tok hd (.refl _ _)
      · intro fuel
        have h1 := hi.steps fuel
        have h2 := receive_some_size env o (env.dir filename) path st t
        rw [hu] at h1
        simp only [lexersPot, List.map_cons, List.sum_cons, List.length_cons] at h1 ⊢
        omega
    | none =>
      obtain ⟨rfl, hu⟩ := hr.none_unread (hw g (by simp))
      refine ⟨hw, k, g', gs, ps, ctx, toks, ps0, r, u, ps', rfl, hi.opened, hi.parse, ?_, hi.res, hi.unread, ?_⟩
      · refine hi.feeds.trans ?_
        rw [hu]
        exact .eof hd (.refl _ _)
      · intro fuel
        have h1 := hi.steps fuel
        have h2 := receive_none_size env o (env.dir filename) path st hd
        omega
  | fileDone path configs r0 ps1 gs0 =>
    obtain ⟨k, g, gs, ps, ctx, toks, ps0, r, u, ps', hg, hi⟩ := hi
    simp only at hg
    subst hg
    obtain ⟨rfl, rfl, hu⟩ := hi.feeds.unique (parse_feeds env o (env.dir filename) path _ ctx toks [] ps0 (Nat.lt_succ_self _) hi.parse)
    have h1 := parseFiles_file hi.opened (configs := configs) hi.parse
    have h2 := unreadFiles_file hi.opened (configs := configs) hi.parse
    have h3 := hi.steps
    have e : ((g :: gs).map LexerG.unread).reverse = (gs.map LexerG.unread).reverse ++ [u] := by simp [hu]
    refine ⟨hw, ?_⟩
    revert h1 h2 h3
    generalize afterFile o path configs ps1 r0 = m
    intro h1 h2 h3
    cases m with
    | next ps2 configs2 =>
      refine ⟨k + 1, ?_, ?_, ?_⟩
      · intro fuel
        rw [show fuel + (k + 1) = fuel + 1 + k by omega, hi.res]
        exact h1 fuel
      · intro fuel
        rw [show fuel + (k + 1) = fuel + 1 + k by omega, hi.unread, h2, e]
        simp
      · intro fuel
        have := h3 fuel
        rw [show fuel + (k + 1) = fuel + 1 + k by omega]
        simp only [afterPot, ParserSt.size] at this ⊢
        omega
    | file => exact absurd (h1 0) id
    | returned q =>
      refine ⟨k + 1, fun fuel => ?_⟩
      rw [show fuel + (k + 1) = fuel + 1 + k by omega]
      refine ⟨?_, ?_, ?_⟩
      · rw [hi.res]; exact h1 fuel
      · rw [hi.unread, h2, e]
      · have := h3 fuel
        simp only [afterPot, ParserSt.size] at this ⊢
        omega

theorem Inv.run {env : Env} {o : ParseOptions} {filename : Str} {cap n : Nat} {s : Sys} (h : LiveRun env o (env.dir filename) cap n (.init filename) s) :
    Inv env o filename cap n s := by
  generalize hs : Sys.init filename = s0 at h
  induction h with
  | refl => subst hs; exact .init ..
  | tail _ hstep ih => exact (ih hs).step hstep

theorem unreadFiles_enough (env : Env) (o : ParseOptions) (configDir : Str) (d : Nat) : ∀ (fuel : Nat) (ps : PS) (configs : List Config),
    (parseFiles env o configDir fuel ps configs).1 ≠ .fuel → unreadFiles env o configDir (fuel + d) ps configs = unreadFiles env o configDir fuel ps configs := by
  intro fuel
  induction fuel with
  | zero => intro ps configs h; simp [parseFiles] at h
  | succ fuel ih =>
    intro ps configs h
    rw [show fuel + 1 + d = (fuel + d) + 1 by omega]
    cases hi : ps.includes with
    | nil => rw [unreadFiles, unreadFiles, hi]
    | cons incl rest =>
      cases ho : env.openFile ps.opens incl.path with
      | error e => rw [unreadFiles, unreadFiles, hi]; simp only [ho]
      | ok data =>
        have hop : Opened env o configDir ps incl.path incl.ctx (fileToks o data) (startFile ps rest) := ⟨rest, data, by rw [hi], ho, rfl, rfl⟩
        rcases hp : parse env o configDir incl.path ((fileToks o data).length + 1) incl.ctx (fileToks o data) [] (startFile ps rest) with ⟨r, u, ps'⟩
        rw [unreadFiles_file hop hp, unreadFiles_file hop hp]
        have := parseFiles_file hop (configs := configs) hp fuel
        revert this
        generalize afterFile o incl.path configs ps' r = m
        intro this
        cases m with
        | next ps2 configs2 =>
          simp only at this ⊢
          rw [this] at h
          rw [ih _ _ h]
        | file => rfl
        | returned => rfl

theorem LiveRun.trans {env : Env} {o : ParseOptions} {configDir : Str} {cap n m : Nat} {a b c : Sys} (h1 : LiveRun env o configDir cap n a b)
    (h2 : LiveRun env o configDir cap m b c) : LiveRun env o configDir cap (n + m) a c := by
  induction h2 with
  | refl => exact h1
  | tail _ hs ih => exact .tail (ih h1) hs

theorem LiveRun.sys {env : Env} {o : ParseOptions} {configDir : Str} {cap n : Nat} {a b : Sys} (h : LiveRun env o configDir cap n a b) :
    SysRun env o configDir cap n a b := by
  induction h with
  | refl => exact .refl _
  | tail _ hs ih => exact .tail ih (.live hs)

theorem LexerStep.unread {cap : Nat} {g g' : LexerG} (h : LexerStep cap g g') : g'.unread = g.unread := by
  cases h <;> simp [LexerG.unread]

/-- A run is one without `cut` up to the return of `Parse`; after that the result stays, and a lexer without unread tokens has none. -/
theorem SysRun.cases {env : Env} {o : ParseOptions} {configDir : Str} {cap n : Nat} {s0 s : Sys} (h : SysRun env o configDir cap n s0 s) :
    LiveRun env o configDir cap n s0 s ∨
    ∃ m s1 q, LiveRun env o configDir cap m s0 s1 ∧ s1.main = .returned q ∧ s.main = .returned q ∧
      ((∀ g ∈ s1.lexers, g.unread = []) → ∀ g ∈ s.lexers, g.unread = []) := by
  induction h with
  | refl => exact Or.inl (.refl _)
  | @tail n a b c _ hs ih =>
    rcases ih with ih | ⟨m, s1, q, h1, h2, h3, h4⟩
    · cases hs with
      | live hs => exact Or.inl (.tail ih hs)
      | cut r pre g post rest hr =>
        refine Or.inr ⟨_, _, r, ih, rfl, rfl, ?_⟩
        intro h
        have := h g (by simp)
        simp [LexerG.unread, hr] at this
    · refine Or.inr ⟨m, s1, q, h1, h2, ?_⟩
      cases hs with
      | cut r pre g post rest hr =>
        refine ⟨h3, fun h => ?_⟩
        have := h4 h g (by simp)
        simp [LexerG.unread, hr] at this
      | live hs =>
        cases hs with
        | lexer m pre g g' post hl =>
          refine ⟨h3, fun h x hx => ?_⟩
          have h4 := h4 h
          rcases List.mem_append.mp hx with hx | hx
          · exact h4 x (by simp [hx])
          · rcases List.mem_cons.mp hx with rfl | hx
            · rw [hl.unread]; exact h4 g (by simp)
            · exact h4 x (by simp [hx])
        | openFail => cases h3
        | openFile => cases h3
        | finish => cases h3
        | receive => cases h3
        | fileDone => cases h3

theorem topRes_fuel {env : Env} {o : ParseOptions} {x : Res (List Config) × PS} (h : topRes env o x ≠ .fuel) : x.1 ≠ .fuel := by
  obtain ⟨r, ps⟩ := x
  intro e
  simp only at e
  subst e
  exact h rfl

/-- A file of statements without errors is read to its end. -/
theorem FilesOk.unread_nil {env : Env} {o : ParseOptions} {configDir : Str} (hc : o.combineConfigs = false)
    (hform : ∀ n path data, env.openFile n path = .ok data → Formed o data) {ps ps' : PS} {cs : List Config}
    (h : FilesOk env o configDir ps cs ps') (he : ps'.payErrors.length = ps.payErrors.length) :
    ∀ fuel configs, ∀ u ∈ unreadFiles env o configDir fuel ps configs, u = [] := by
  induction h with
  | nil ps hi =>
    intro fuel configs u hu
    cases fuel with
    | zero => simp [unreadFiles] at hu
    | succ fuel => rw [unreadFiles, hi] at hu; simp at hu
  | ok ps incl rest data ds toks' ps1 cs ps' hi ho hr hf ih =>
    intro fuel configs u hu
    have g1 := ((payErrors_rel o incl.path).runOk hr).length_le
    have g2 := hf.errors_grow.length_le
    have g0 : (startFile ps rest).payErrors = ps.payErrors := rfl
    rw [g0] at g1
    cases fuel with
    | zero => simp [unreadFiles] at hu
    | succ fuel =>
      have hop : Opened env o configDir ps incl.path incl.ctx (fileToks o data) (startFile ps rest) := ⟨rest, data, by rw [hi], ho, rfl, rfl⟩
      have hp := hr.parse_eq ((fileToks o data).length + 1) [] (Nat.lt_succ_self _)
      rw [unreadFiles_file hop hp] at hu
      rcases List.mem_cons.mp hu with rfl | hu
      · have hN : ∀ ctx t args ps stmt' ps', t.value = c!"include" → doInclude env o configDir incl.path ctx (baseStmt o incl.path t args) ps = (.ok stmt', ps') →
            ps'.payErrors.length = ps.payErrors.length → ((fun _ => some []) args : Option (List Str)).isSome = true := by intros; rfl
        have he1 : ps1.payErrors.length = (startFile ps rest).payErrors.length := by rw [g0]; omega
        obtain ⟨k1, k2⟩ := hr.file_conf hc he1 (hform _ _ _ ho) (fun _ => some []) hN
        have := k2.shape.conf hc (fun _ => some []) hN incl.ctx (startFile ps rest) [] ds u ps1 k1 (Or.inl rfl) (by rw [List.append_nil]; exact hr) he1
        exact this.2
      · exact ih (by omega) fuel _ u hu
  | bad ps incl rest data e toks' ps1 cs ps' hi ho hr hs hf ih =>
    exfalso
    have g1 := ((payErrors_rel o incl.path).runFail hr).length_le
    have g2 := hf.errors_grow.length_le
    have g0 : (startFile ps rest).payErrors = ps.payErrors := rfl
    rw [g0] at g1
    simp [handleError] at g2
    omega

theorem topRes_enough (env : Env) (o : ParseOptions) (configDir : Str) (d : Nat) : ∀ (fuel : Nat) (ps : PS) (configs : List Config),
    (parseFiles env o configDir fuel ps configs).1 ≠ .fuel →
    topRes env o (parseFiles env o configDir (fuel + d) ps configs) = topRes env o (parseFiles env o configDir fuel ps configs) := by
  intro fuel
  induction fuel with
  | zero => intro ps configs h; simp [parseFiles] at h
  | succ fuel ih =>
    intro ps configs h
    rw [show fuel + 1 + d = (fuel + d) + 1 by omega]
    cases hi : ps.includes with
    | nil => rw [parseFiles, parseFiles, hi]
    | cons incl rest =>
      cases ho : env.openFile ps.opens incl.path with
      | error e => rw [parseFiles, parseFiles, hi]; simp only [ho]
      | ok data =>
        have hop : Opened env o configDir ps incl.path incl.ctx (fileToks o data) (startFile ps rest) := ⟨rest, data, by rw [hi], ho, rfl, rfl⟩
        rcases hp : parse env o configDir incl.path ((fileToks o data).length + 1) incl.ctx (fileToks o data) [] (startFile ps rest) with ⟨r, u, ps'⟩
        have h1 := parseFiles_file hop (configs := configs) hp fuel
        have h2 := parseFiles_file hop (configs := configs) hp (fuel + d)
        revert h1 h2
        generalize afterFile o incl.path configs ps' r = m
        intro h1 h2
        cases m with
        | next ps2 configs2 =>
          simp only at h1 h2
          rw [h1] at h
          rw [h1, h2]
          exact ih _ _ h
        | file => exact absurd h1 id
        | returned => exact h2.trans h1.symm

/-- With more fuel than needed the result is the same. -/
theorem Parse_more {env : Env} {fuel : Nat} {filename : Str} {o : ParseOptions} (h : Parse env fuel filename o ≠ .fuel) (d : Nat) :
    Parse env (fuel + d) filename o = Parse env fuel filename o := by
  rw [Parse_topRes] at h
  rw [Parse_topRes, Parse_topRes]
  exact topRes_enough _ _ _ _ _ _ _ (topRes_fuel h)

end Verif
