import Verif.Props.External
import Verif.Props.Lexer
import Verif.Props.Ex
import Verif.Proofs.Files
import Verif.Proofs.Combine
import Verif.Spec.Expand
import Verif.Model.Lua
import Verif.Props.Build
import Verif.Props.LuaBuild
/-!
# C98: external lexers and builders that are not used
-/
namespace Verif
open Spec

theorem parse_lexers (env : Env) (o : ParseOptions) (L : List RegisterLexer) (configDir file : Str) (fuel : Nat) : ∀ (ctx : Ctx) (toks : List Tok) (parsed : List Directive) (ps : PS),
    parse env { o with lexers := L } configDir file fuel ctx toks parsed ps = parse env o configDir file fuel ctx toks parsed ps := by
  have h1 : ∀ f s t c, analyze f s t c { o with lexers := L } = analyze f s t c o := fun _ _ _ _ => rfl
  have h2 : ∀ f c s p, doInclude env { o with lexers := L } configDir f c s p = doInclude env o configDir f c s p := fun _ _ _ _ => rfl
  have h3 : ∀ f p e, handleError { o with lexers := L } f p e = handleError o f p e := fun _ _ _ => rfl
  induction fuel with
  | zero => intros; rfl
  | succ fuel ih =>
    intro ctx toks parsed ps
    cases toks with
    | nil => rfl
    | cons t toks => simp only [parse, ih, h1, h2, h3]

theorem parseFiles_lexers {env : Env} {L L' : List RegisterLexer} (h : ∀ n f d, env.openFile n f = .ok d → lexWith (extLexersOf L) d.runes = lexWith (extLexersOf L') d.runes)
    (o : ParseOptions) (configDir : Str) (fuel : Nat) : ∀ (ps : PS) (cs : List Config),
    parseFiles env { o with lexers := L } configDir fuel ps cs = parseFiles env { o with lexers := L' } configDir fuel ps cs := by
  have h3 : ∀ f p e, handleError { o with lexers := L } f p e = handleError { o with lexers := L' } f p e := fun _ _ _ => rfl
  induction fuel with
  | zero => intros; rfl
  | succ fuel ih =>
    intro ps cs
    rw [parseFiles, parseFiles]
    cases hi : ps.includes with
    | nil => rfl
    | cons incl rest =>
      dsimp only
      cases hd : env.openFile ps.opens incl.path with
      | error e => rfl
      | ok data =>
        dsimp only
        rw [h _ _ _ hd]
        simp only [parse_lexers, ih, h3]

/-- C98.  Two registrations of external lexers that give the same tokens for all files give the same result. -/
theorem C98_same {env : Env} {L L' : List RegisterLexer} (h : ∀ n f d, env.openFile n f = .ok d → lexWith (extLexersOf L) d.runes = lexWith (extLexersOf L') d.runes)
    (fuel : Nat) (filename : Str) (o : ParseOptions) : Parse env fuel filename { o with lexers := L } = Parse env fuel filename { o with lexers := L' } := by
  unfold Parse
  rw [parseFiles_lexers h]

/-- A beginning without quotes of the value of a quoted string stands in the string. -/
theorem quoted_prefix {q : Char} {us : List U} : ∀ {n : Str}, n <+: quotedValue q us → q ∉ n → n <+: textOf us := by
  induction us with
  | nil => intro n h _; exact h
  | cons u us ih =>
    intro n h hq
    have e : quotedValue q (u :: us) = (if u = .esc q then [q] else u.text) ++ quotedValue q us := by simp [quotedValue]
    have e' : textOf (u :: us) = u.text ++ textOf us := by simp [textOf]
    rw [e] at h
    rw [e']
    by_cases hu : u = .esc q
    · rw [if_pos hu] at h
      cases n with
      | nil => exact List.nil_prefix
      | cons c n =>
        rw [List.singleton_append, List.cons_prefix_cons] at h
        exact absurd (by simp [h.1]) hq
    · rw [if_neg hu] at h
      rcases List.prefix_or_prefix_of_prefix h (List.prefix_append ..) with h | ⟨m, rfl⟩
      · exact h.trans (List.prefix_append ..)
      · exact (List.prefix_append_right_inj _).mpr (ih ((List.prefix_append_right_inj _).mp h) fun hx => hq (List.mem_append_right _ hx))

theorem dirNames_infix (k : Nat) : ∀ (items : List Item), items.length ≤ k → WF items → ∀ (dir : Bool), ∀ v ∈ dirNames dir items, ∀ n, n <+: v → '"' ∉ n → '\'' ∉ n → n <:+: unlex items := by
  have hcons : ∀ (i : Item) (rest : List Item) (n : Str), n <:+: unlex rest → n <:+: unlex (i :: rest) := by
    intro i rest n h
    have : unlex (i :: rest) = i.text ++ unlex rest := by simp [unlex]
    rw [this]
    exact h.trans (List.suffix_append ..).isInfix
  have hhere : ∀ (i : Item) (rest : List Item) (n : Str), n <:+: i.text → n <:+: unlex (i :: rest) := by
    intro i rest n h
    have : unlex (i :: rest) = i.text ++ unlex rest := by simp [unlex]
    rw [this]
    exact h.trans (List.prefix_append ..).isInfix
  induction k with
  | zero =>
    intro items hk _ dir v hv
    cases items with
    | nil => simp [dirNames] at hv
    | cons => simp at hk
  | succ k ih =>
    intro items hk hw dir v hv n hn h1 h2
    have cond : ∀ {p : Prop} [Decidable p] {x : Str} {l : List Str}, v ∈ (if p then [x] else []) ++ l → v = x ∨ v ∈ l := by
      intro p _ x l h
      rcases List.mem_append.mp h with h | h
      · split at h
        · exact .inl (by simpa using h)
        · cases h
      · exact .inr h
    match items, hk, hw, hv with
    | [], _, _, hv => simp [dirNames] at hv
    | .space c :: rest, hk, hw, hv =>
      rw [dirNames] at hv
      exact hcons _ _ _ (ih rest (by simp at hk; omega) hw.2.2 _ v hv n hn h1 h2)
    | .special c :: rest, hk, hw, hv =>
      rw [dirNames] at hv
      exact hcons _ _ _ (ih rest (by simp at hk; omega) hw.2 _ v hv n hn h1 h2)
    | .comment us e :: rest, hk, hw, hv =>
      rw [dirNames] at hv
      rcases List.mem_cons.mp hv with rfl | hv
      · exact hhere _ _ _ (hn.isInfix.trans (List.prefix_append ('#' :: textOf us) e.text).isInfix)
      · exact hcons _ _ _ (ih rest (by simp at hk; omega) hw.2.2 _ v hv n hn h1 h2)
    | .quoted q us b :: rest, hk, hw, hv =>
      rw [dirNames] at hv
      rcases cond hv with rfl | hv
      · have hq : q ∉ n := by rcases hw.1 with rfl | rfl <;> assumption
        refine hhere _ _ _ ((quoted_prefix hn hq).isInfix.trans ?_)
        exact ⟨[q], if b then [q] else [], by simp [Item.text]⟩
      · exact hcons _ _ _ (ih rest (by simp at hk; omega) hw.2.2.2 _ v hv n hn h1 h2)
    | .word us :: .space c :: rest, hk, hw, hv =>
      rw [dirNames] at hv
      rcases cond hv with rfl | hv
      · exact hhere _ _ _ hn.isInfix
      · exact hcons _ _ _ (hcons _ _ _ (ih rest (by simp at hk; omega) hw.2.2.2.2.2 _ v hv n hn h1 h2))
    | .word us :: [], hk, hw, hv =>
      rcases cond (by simpa only [dirNames] using hv) with rfl | hv
      · exact hhere _ _ _ hn.isInfix
      · simp [dirNames] at hv
    | .word us :: .special c :: rest, hk, hw, hv =>
      rw [dirNames.eq_5 _ _ _ (by intro c r h; cases h)] at hv
      rcases cond hv with rfl | hv
      · exact hhere _ _ _ hn.isInfix
      · exact hcons _ _ _ (ih _ (by simp at hk ⊢; omega) hw.2.2.2 _ v hv n hn h1 h2)
    | .word us :: .word us' :: rest, hk, hw, hv =>
      rw [dirNames.eq_5 _ _ _ (by intro c r h; cases h)] at hv
      rcases cond hv with rfl | hv
      · exact hhere _ _ _ hn.isInfix
      · exact hcons _ _ _ (ih _ (by simp at hk ⊢; omega) hw.2.2.2 _ v hv n hn h1 h2)
    | .word us :: .quoted q us' b :: rest, hk, hw, hv =>
      rw [dirNames.eq_5 _ _ _ (by intro c r h; cases h)] at hv
      rcases cond hv with rfl | hv
      · exact hhere _ _ _ hn.isInfix
      · exact hcons _ _ _ (ih _ (by simp at hk ⊢; omega) hw.2.2.2 _ v hv n hn h1 h2)
    | .word us :: .comment us' e :: rest, hk, hw, hv =>
      rw [dirNames.eq_5 _ _ _ (by intro c r h; cases h)] at hv
      rcases cond hv with rfl | hv
      · exact hhere _ _ _ hn.isInfix
      · exact hcons _ _ _ (ih _ (by simp at hk ⊢; omega) hw.2.2.2 _ v hv n hn h1 h2)

/-- The text, read without carriage returns, does not contain the name. -/
def Lacks (s n : Str) : Prop := ¬ n <:+: s.filter (· ≠ '\r')

/-- C98.  If no registered name stands in the text, anywhere, the tokens are those without external lexers. -/
theorem C98_tokens {ext : ExtLexers} {s : Str} (h : ∀ n, n ≠ [] → ext n ≠ none → '"' ∉ n ∧ '\'' ∉ n ∧ Lacks s n) : lexWith ext s = lex s := by
  obtain ⟨items, d, e, hw, hd, -⟩ := C03_every_text_is_items s
  refine C10_unregistered e hw hd fun v hv n hn hp => ?_
  by_contra hx
  obtain ⟨h1, h2, h3⟩ := h n hn hx
  refine h3 ?_
  rw [e]
  exact (dirNames_infix _ items (Nat.le_refl _) hw true v hv n hp h1 h2).trans (List.prefix_append ..).isInfix

/-- C98.  If no registered name stands in any file, `Parse` gives what it gives without external lexers. -/
theorem C98_parse {env : Env} {o : ParseOptions} (h : ∀ n f d, env.openFile n f = .ok d → ∀ l ∈ o.lexers, ∀ x ∈ l.stringTokens, x ≠ [] → '"' ∉ x ∧ '\'' ∉ x ∧ Lacks d.runes x)
    (fuel : Nat) (filename : Str) : Parse env fuel filename o = Parse env fuel filename { o with lexers := [] } := by
  refine C98_same (L := o.lexers) (L' := []) (fun n f d hd => ?_) fuel filename o
  rw [C10_none]
  refine C98_tokens fun x hx he => ?_
  rw [C10_last_wins] at he
  cases hl : (o.lexers.filter fun r => decide (x ∈ r.stringTokens)).getLast? with
  | none => rw [hl] at he; exact absurd rfl he
  | some l =>
    have hm := List.mem_of_getLast? hl
    rw [List.mem_filter] at hm
    exact h n f d hd l hm.1 x (by simpa using hm.2) hx

/-- C98.  Files that do not contain `_by_lua_block` are parsed as without the lexer for Lua. -/
theorem C98_lua {env : Env} {o : ParseOptions} (ho : o.lexers = luaRegisterLexer) (h : ∀ n f d, env.openFile n f = .ok d → Lacks d.runes c!"_by_lua_block") (fuel : Nat) (filename : Str) :
    Parse env fuel filename o = Parse env fuel filename { o with lexers := [] } := by
  refine C98_parse (fun n f d hd l hl x hx _ => ?_) fuel filename
  rw [ho] at hl
  obtain ⟨name, hname, rfl⟩ := List.mem_map.mp hl
  obtain rfl := List.mem_singleton.mp hx
  have key : ∀ y ∈ luaDirectiveNames, '"' ∉ y ∧ '\'' ∉ y ∧ c!"_by_lua_block" <:+ y := by decide
  obtain ⟨k1, k2, k3⟩ := key x hname
  exact ⟨k1, k2, fun hi => h n f d hd (k3.isInfix.trans hi)⟩

/-! ## Builders -/

theorem buildBlock_ext {isPrint : Char → Bool} {o o' : BuildOptions} (hi : o.indent = o'.indent) (ht : o.tabs = o'.tabs) (ds : List Directive)
    (h : ∀ d, Within d ds → o.ext (Enquote isPrint d.directive) = o'.ext (Enquote isPrint d.directive)) : ∀ (parent : Bool) (depth : Nat) (line : Int) (first : Bool),
    buildBlock isPrint o parent depth line first ds = buildBlock isPrint o' parent depth line first ds := by
  have hm : ∀ depth, margin o depth = margin o' depth := fun depth => by simp only [margin, hi, ht]
  have list : ∀ l : List Directive, (∀ d ∈ l, ∀ depth, buildStmt isPrint o depth d = buildStmt isPrint o' depth d) → ∀ (parent : Bool) (depth : Nat) (line : Int) (first : Bool),
      buildBlock isPrint o parent depth line first l = buildBlock isPrint o' parent depth line first l := by
    intro l
    induction l with
    | nil => intros; rfl
    | cons d l ihl =>
      intro hl parent depth line first
      have ih := ihl fun x hx => hl x (.tail _ hx)
      simp only [buildBlock, ih, hl d (.head _)]
  have key : ∀ d : Directive, (∀ x, Within x [d] → o.ext (Enquote isPrint x.directive) = o'.ext (Enquote isPrint x.directive)) →
      ∀ depth, buildStmt isPrint o depth d = buildStmt isPrint o' depth d := by
    intro d
    induction d using Directive.ind with
    | h dd dl da df di db dc dm ih =>
      intro hd depth
      have h0 := hd ⟨dd, dl, da, df, di, db, dc, dm⟩ (.here (.head _))
      dsimp only at h0
      have hopt : buildOpt isPrint o depth dl db = buildOpt isPrint o' depth dl db := by
        cases db with
        | none => rfl
        | some b =>
          have := list b (fun x hx => ih b rfl x hx fun y hy => hd y (.deep (.head _) rfl ?_)) true (depth + 1) dl true
          · simp only [buildOpt, this, hm]
          · rcases within_cons.mp hy with rfl | ⟨b', e, hy⟩ | hy
            · exact .here hx
            · exact .deep hx e hy
            · exact absurd hy within_nil
      simp only [buildStmt, hm, h0, hopt]
  refine list ds fun d hd depth => key d (fun x hx => h x ?_) depth
  rcases within_cons.mp hx with rfl | ⟨b', e, hy⟩ | hy
  · exact .here hd
  · exact .deep hd e hy
  · exact absurd hy within_nil

/-- C98.  Two registrations of builders that agree on the names in the tree give the same text. -/
theorem C98_build {isPrint : Char → Bool} {o : BuildOptions} (B B' : List RegisterBuilder) (hn : o.extBuilders = none) {c : Config}
    (h : ∀ d, Within d c.parsed → lastBuilder B (Enquote isPrint d.directive) = lastBuilder B' (Enquote isPrint d.directive)) :
    buildText isPrint c { o with builders := B } = buildText isPrint c { o with builders := B' } := by
  have hs : ∀ B n, (buildSetup { o with builders := B }).ext n = lastBuilder B n := by
    intro B n
    unfold buildSetup
    by_cases hz : o.indent = 0
    · simp only [hn, hz, beq_self_eq_true, if_true, Option.isNone_none, applyBuilders_ext]
      simp [BuildOptions.ext]
    · simp only [hn, beq_iff_eq, hz, if_false, Option.isNone_none, if_true, applyBuilders_ext]
      simp [BuildOptions.ext]
  unfold buildText buildBody
  rw [buildBlock_ext (o := buildSetup { o with builders := B }) (o' := buildSetup { o with builders := B' }) (by simp only [buildSetup_keeps]) (by simp only [buildSetup_keeps])
    c.parsed fun d hd => by rw [hs, hs, h d hd]]

/-- C98.  Builders registered for no name of the tree change nothing. -/
theorem C98_unused {isPrint : Char → Bool} {o : BuildOptions} (hn : o.extBuilders = none) {c : Config}
    (h : ∀ d, Within d c.parsed → ∀ r ∈ o.builders, Enquote isPrint d.directive ∉ r.directives) :
    buildText isPrint c o = buildText isPrint c { o with builders := [] } := by
  refine C98_build o.builders [] hn fun d hd => ?_
  have : o.builders.reverse.find? (fun r => decide (Enquote isPrint d.directive ∈ r.directives)) = none := by
    rw [List.find?_eq_none]
    intro r hr
    simpa using h d hd r (by simpa using hr)
  rw [lastBuilder, this]
  rfl

/-! ## Examples -/

example : let files := [(c!"/e/n", c!"http{# by lua\nroot /r;}")]
    Parse (exEnv files) 2 c!"/e/n" { exOpts with lexers := luaRegisterLexer } = Parse (exEnv files) 2 c!"/e/n" exOpts := by
  intro files
  refine C98_lua rfl (fun n f d hd => ?_) 2 c!"/e/n"
  have : d.runes = c!"http{# by lua\nroot /r;}" := by
    by_cases hf : f = c!"/e/n"
    · subst hf
      cases hd
      rfl
    · have hb : (f == c!"/e/n") = false := by simpa using hf
      simp only [exEnv, files, List.lookup, hb] at hd
      cases hd
  rw [this]
  unfold Lacks
  decide +kernel

/-- The name may not stand in the file, not even as an argument or in a comment: here the lexer for Lua is called for an argument before a line feed. -/
example : ∃ s : Str, lexWith (extLexersOf luaRegisterLexer) s ≠ lex s ∧ (∀ t ∈ (lex s).head?, t.value = c!"a") ∧ ¬ Lacks s c!"_by_lua_block" :=
  ⟨c!"a log_by_lua_block\n{b;}", by decide +kernel, by decide +kernel, by unfold Lacks; decide +kernel⟩

/-- Quotes in names are excluded for a reason: the name `a"` does not stand in this text, but it is the beginning of the value of the string. -/
example : ∃ (ext : ExtLexers) (s : Str), (∀ n, ext n ≠ none → Lacks s n) ∧ lexWith ext s ≠ lex s := by
  refine ⟨extLexersOf [⟨fun _ _ => ([⟨c!"x", 9, false, none⟩], 0), [c!"a\""]⟩], c!"\"a\\\"b\" c;", fun n hn => ?_, by decide +kernel⟩
  have : n = c!"a\"" := by
    by_contra hc
    exact hn (by simp [extLexersOf, RegisterLexer.apply, hc])
  subst this
  unfold Lacks
  decide +kernel

/-- The builder for Lua is not used: a tree without names registered for it, one of them in a block of the other. -/
example : buildText (fun _ => true) ⟨c!"n", [], [], [blk c!"http" 1 [] [dir c!"root" 2 [c!"/r"]]]⟩ { builders := [luaRegisterBuilder] } = some c!"http {\n    root /r;\n}" := by
  rw [C98_unused rfl fun d hd r hr => ?_]
  · decide +kernel
  · rw [List.mem_singleton] at hr
    subst hr
    rcases within_cons.mp hd with rfl | ⟨b, e, hy⟩ | hy
    · decide +kernel
    · cases e
      rcases within_cons.mp hy with rfl | ⟨b', e, hy⟩ | hy
      · decide +kernel
      · cases e
      · exact absurd hy within_nil
    · exact absurd hy within_nil

/-- A builder that is used changes the text. -/
example : buildText (fun _ => true) ⟨c!"n", [], [], [dir c!"root" 2 [c!"/r"]]⟩ { builders := [⟨fun _ => c!"x", [c!"root"]⟩] } = some c!"x" := by decide +kernel

end Verif
