import Verif.Spec.Size
import Verif.Props.Lexer
import Verif.Props.Relate
import Verif.Props.Project
/-!
# C72: how large a payload is

What `Parse` gives is not larger than what it reads, unless it combines: combined configurations can be exponentially large.
-/
namespace Verif
open Spec

/-! ## Sizes -/

theorem strsSize_nil : strsSize [] = 0 := rfl

theorem strsSize_cons (s : Str) (l : List Str) : strsSize (s :: l) = s.length + 1 + strsSize l := by
  simp [strsSize]

theorem strsSize_append (a b : List Str) : strsSize (a ++ b) = strsSize a + strsSize b := by
  simp [strsSize]

theorem strsSize_sublist {a b : List Str} (h : a.Sublist b) : strsSize a ≤ strsSize b := by
  induction h with
  | slnil => exact Nat.le_refl _
  | cons s _ ih => rw [strsSize_cons]; omega
  | cons_cons s _ ih => rw [strsSize_cons, strsSize_cons]; omega

theorem strsSize_set (l : List Str) (i : Nat) (s : Str) (h : s.length ≤ (l.getD i []).length) : strsSize (l.set i s) ≤ strsSize l := by
  induction l generalizing i with
  | nil => exact Nat.le_refl _
  | cons a l ih =>
    cases i with
    | zero =>
      rw [List.set_cons_zero, strsSize_cons, strsSize_cons]
      have : s.length ≤ a.length := h
      omega
    | succ i =>
      rw [List.set_cons_succ, strsSize_cons, strsSize_cons]
      have := ih i h
      omega

theorem toksSize_cons (t : Tok) (toks : List Tok) : toksSize (t :: toks) = t.value.length + 1 + toksSize toks := by
  simp [toksSize, strsSize_cons]

theorem toksSize_append (a b : List Tok) : toksSize (a ++ b) = toksSize a + toksSize b := by
  simp [toksSize, strsSize_append]

theorem size_eq (d : Directive) : size d = d.directive.length + 1 + strsSize d.args + (d.comment.getD []).length + sizeOpt d.block := by
  obtain ⟨dd, dl, dargs, df, dincl, dblock, dc, dm⟩ := d
  rfl

theorem sizeList_append (a b : List Directive) : sizeList (a ++ b) = sizeList a + sizeList b := by
  induction a with
  | nil => simp [sizeList]
  | cons d a ih => rw [List.cons_append, sizeList, sizeList, ih]; omega

/-! ## Runs -/

theorem trimLeftSpace_length (s : Str) : (trimLeftSpace s).length ≤ s.length := (List.dropWhile_sublist _).length_le

theorem trimRightSpace_length (s : Str) : (trimRightSpace s).length ≤ s.length := by
  unfold trimRightSpace
  rw [List.length_reverse]
  have := (List.dropWhile_sublist isSpaceRune (l := s.reverse)).length_le
  rwa [List.length_reverse] at this

theorem trimPrefixChar_length (s : Str) (c : Char) : (trimPrefixChar s c).length ≤ s.length := by
  unfold trimPrefixChar
  split
  · split
    · simp
    · exact Nat.le_refl _
  · exact Nat.le_refl _

theorem trimSuffixChar_length (s : Str) (c : Char) : (trimSuffixChar s c).length ≤ s.length := by
  unfold trimSuffixChar
  rw [List.length_reverse]
  have := trimPrefixChar_length s.reverse c
  rwa [List.length_reverse] at this

theorem ite_some {α : Type} {c : Prop} [Decidable c] {x y : α} (h : (if c then none else some x) = some y) : x = y := by
  split at h
  · cases h
  · exact Option.some.inj h

theorem prepareIfArgs_size {d d' : Directive} (h : prepareIfArgs d = some d') : strsSize d'.args ≤ strsSize d.args := by
  unfold prepareIfArgs at h
  split at h
  · rename_i a0 ae h0 he
    split at h
    · have h := ite_some h
      rw [← h]
      refine Nat.le_trans (strsSize_sublist ((List.drop_sublist _ _).trans (List.take_sublist _ _))) ?_
      refine Nat.le_trans (strsSize_set _ _ _ (Nat.le_trans (trimRightSpace_length _) (trimSuffixChar_length _ _))) ?_
      refine strsSize_set _ _ _ (Nat.le_trans (trimLeftSpace_length _) (Nat.le_trans (trimPrefixChar_length _ _) ?_))
      rw [List.head?_eq_getElem?] at h0
      rw [List.getD_eq_getElem?_getD, h0]
      exact Nat.le_refl _
    · cases h; exact Nat.le_refl _
  · cases h; exact Nat.le_refl _

theorem prepIf_size {d d' : Directive} (h : prepIf d = some d') : strsSize d'.args ≤ strsSize d.args := by
  unfold prepIf at h
  split at h
  · exact prepareIfArgs_size h
  · cases h; exact Nat.le_refl _

theorem readArgs_size {pc : Bool} {toks : List Tok} {a c args comments : List Str} {term : Tok} {rest : List Tok}
    (h : readArgs pc a c toks = some (args, comments, term, rest)) :
    strsSize args + strsSize comments + comments.length + (term.value.length + 1) + toksSize rest ≤ strsSize a + strsSize c + c.length + toksSize toks := by
  induction toks generalizing a c with
  | nil => simp [readArgs] at h
  | cons t toks ih =>
    unfold readArgs at h
    rw [toksSize_cons]
    split at h
    · cases h; omega
    · split at h
      · have := ih h
        rw [strsSize_append, strsSize_cons, strsSize_nil] at this
        omega
      · rename_i hc
        split at h
        · have := ih h
          rw [strsSize_append, strsSize_cons, strsSize_nil, List.length_append, List.length_singleton] at this
          have hv : 1 ≤ t.value.length := by
            cases hv : t.value with
            | nil => simp [Tok.isCommentTok, hv, hasPrefix] at hc
            | cons _ _ => simp
          rw [List.length_drop] at this
          omega
        · have := ih h; omega

theorem consume_size (depth : Nat) (toks : List Tok) : toksSize (consume depth toks) ≤ toksSize toks := by
  induction toks generalizing depth with
  | nil => simp [consume]
  | cons t toks ih =>
    unfold consume
    rw [toksSize_cons]
    split
    · split
      · omega
      · rename_i d; have := ih d; omega
    · split
      · have := ih (depth + 1); omega
      · have := ih depth; omega

theorem skipBlock_size (term : Tok) (toks : List Tok) : toksSize (skipBlock term toks) ≤ toksSize toks := by
  unfold skipBlock
  split
  · exact consume_size 0 toks
  · exact Nat.le_refl _

theorem commentDirectives_size (line : Int) (file : Str) (cs : List Str) : sizeList (commentDirectives line file cs) = strsSize cs + cs.length := by
  induction cs with
  | nil => rfl
  | cons c cs ih =>
    have : sizeList (commentDirectives line file (c :: cs)) = (1 + 1 + 0 + c.length + 0) + sizeList (commentDirectives line file cs) := rfl
    rw [this, ih, strsSize_cons, List.length_cons]
    omega

theorem doInclude_errors {env : Env} {o : ParseOptions} {configDir file : Str} {ctx : Ctx} {stmt : Directive} {ps : PS} {r : Res Directive} {ps' : PS}
    (h : doInclude env o configDir file ctx stmt ps = (r, ps')) : ps'.payErrors.length ≤ ps.payErrors.length + 1 := by
  have hr := doInclude_inclR env o configDir file ctx stmt ps
  rw [h] at hr
  cases hr with
  | other => omega
  | noArgs => omega
  | globErr => simp
  | globOk a as names =>
    rw [(addIncludes_calm file ctx stmt { ps with globs := ps.globs + 1 } (sortStrings names)).1]
    simp
  | openBad => simp [handleError]
  | openFail => simp
  | openOk a as =>
    rw [(addIncludes_calm file ctx stmt { ps with opens := ps.opens + 1 } [resolve env configDir a]).1]
    simp

/-- What a round adds. -/
def Step.size : Step → Nat
  | .stop _ _ => 0
  | .fail _ _ _ => 1
  | .next new _ _ => sizeList new
  | .block stmt comments _ _ => Spec.size stmt + strsSize comments + comments.length

/-- The state after a round. -/
def Step.finalPS : Step → PS
  | .stop _ ps => ps
  | .fail _ _ ps => ps
  | .next _ _ ps => ps
  | .block _ _ _ ps => ps

theorem step_size (env : Env) (o : ParseOptions) (configDir file : Str) (ctx : Ctx) (t : Tok) (toks : List Tok) (ps : PS) :
    (step env o configDir file ctx t toks ps).size + (step env o configDir file ctx t toks ps).finalPS.payErrors.length +
      toksSize (step env o configDir file ctx t toks ps).rest ≤ toksSize (t :: toks) + ps.payErrors.length := by
  have h := step_cases env o configDir file ctx t toks ps
  generalize step env o configDir file ctx t toks ps = s at h
  rw [toksSize_cons]
  have hR : ∀ {args comments term rest}, Reads o t toks args comments term rest →
      strsSize args + strsSize comments + comments.length + (term.value.length + 1) + toksSize rest ≤ toksSize toks := fun R => by
    have := readArgs_size R.read
    rw [strsSize_nil] at this
    simpa using this
  have hE : ∀ e, (handleError o file ps e).payErrors.length = ps.payErrors.length + 1 := fun e => by simp [handleError]
  have hB : ∀ args, size (baseStmt o file t args) = t.value.length + 1 + strsSize args := fun args => by rw [size_eq]; simp [baseStmt, sizeOpt]
  have hS : ∀ {args stmt stmt' ps'}, prepIf (baseStmt o file t args) = some stmt → doInclude env o configDir file ctx stmt ps = (.ok stmt', ps') →
      size stmt' ≤ t.value.length + 1 + strsSize args := fun {args stmt stmt' ps'} h1 h2 => by
    have e1 := prepIf_some h1
    have hn : stmt.includes = none := by rw [e1]; rfl
    have e2 := (doInclude_ok hn h2).1
    have h3 := prepIf_size h1
    rw [size_eq, e2, e1]
    simp only [baseStmt, sizeOpt, Option.getD_none, List.length_nil]
    have : strsSize stmt.args ≤ strsSize args := h3
    omega
  cases h with
  | tokErr => simp only [Step.size, Step.rest, Step.finalPS]; omega
  | close => simp only [Step.size, Step.rest, Step.finalPS]; omega
  | comment h1 h2 h3 =>
    simp only [Step.size, Step.rest, Step.finalPS]
    split
    · have hv : 1 ≤ t.value.length := by
        cases hv : t.value with
        | nil => simp [Tok.isCommentTok, hv, hasPrefix] at h3
        | cons _ _ => simp
      have : sizeList [commentStmt o file t] = 1 + 1 + 0 + (t.value.drop 1).length + 0 := rfl
      rw [this, List.length_drop]
      omega
    · simp only [sizeList]; omega
  | premature =>
    simp only [Step.size, Step.rest, Step.finalPS]
    have : toksSize [] = 0 := rfl
    omega
  | mapFail _ _ _ _ _ _ R => have := hR R; simp only [Step.size, Step.rest, Step.finalPS]; omega
  | mapBad _ _ term rest _ _ R =>
    have := hR R; have := skipBlock_size term rest
    simp only [Step.size, Step.rest, Step.finalPS, hE, sizeList]; omega
  | mapOk args _ _ _ _ R =>
    have := hR R
    have e : sizeList [{ baseStmt o file t args with isMapBlockParameter := true }] = size (baseStmt o file t args) + 0 := rfl
    simp only [Step.size, Step.rest, Step.finalPS, e, hB]; omega
  | ignored _ _ term rest R =>
    have := hR R; have := skipBlock_size term rest
    simp only [Step.size, Step.rest, Step.finalPS, sizeList]; omega
  | rejectFail _ _ _ _ _ R => have := hR R; simp only [Step.size, Step.rest, Step.finalPS]; omega
  | rejectSkip _ _ _ rest _ R =>
    have := hR R; have := consume_size 0 rest
    simp only [Step.size, Step.rest, Step.finalPS, hE, sizeList]; omega
  | rejectStop _ _ _ _ _ R => have := hR R; simp only [Step.size, Step.rest, Step.finalPS, hE]; omega
  | reject _ _ _ _ _ R => have := hR R; simp only [Step.size, Step.rest, Step.finalPS, hE, sizeList]; omega
  | panic _ _ _ _ R => have := hR R; simp only [Step.size, Step.rest, Step.finalPS]; omega
  | inclFail _ _ _ _ _ _ _ R h1 h2 h3 h4 h5 =>
    have := hR R; have := doInclude_errors h5
    simp only [Step.size, Step.rest, Step.finalPS]; omega
  | simple _ _ _ _ _ _ _ R h1 h2 h3 h4 h5 =>
    have := hR R; have := doInclude_errors h5; have := hS h4 h5
    simp only [Step.size, Step.rest, Step.finalPS, List.cons_append, List.nil_append, sizeList, commentDirectives_size]; omega
  | block _ _ _ _ _ _ _ R h1 h2 h3 h4 h5 =>
    have := hR R; have := doInclude_errors h5; have := hS h4 h5
    simp only [Step.size, Step.rest, Step.finalPS]; omega

/-- A run gives no more directives and errors than it uses up of the tokens. -/
theorem RunOk.size {env : Env} {o : ParseOptions} {configDir file : Str} {ctx : Ctx} {toks : List Tok} {ps : PS} {ds : List Directive} {toks' : List Tok}
    {ps' : PS} (h : RunOk env o configDir file ctx toks ps ds toks' ps') :
    sizeList ds + ps'.payErrors.length + toksSize toks' ≤ toksSize toks + ps.payErrors.length := by
  induction h with
  | eof => simp only [sizeList]; omega
  | stop ctx t toks ps toks' ps' hs =>
    have := step_size env o configDir file ctx t toks ps
    rw [hs] at this
    simp only [Step.size, Step.rest, Step.finalPS] at this
    simp only [sizeList]; omega
  | next ctx t toks ps new toks1 ps1 ds toks' ps' hs _ ih =>
    have := step_size env o configDir file ctx t toks ps
    rw [hs] at this
    simp only [Step.size, Step.rest, Step.finalPS] at this
    rw [sizeList_append]; omega
  | block ctx t toks ps stmt comments toks1 ps1 b toks2 ps2 ds toks' ps' hs _ _ ih1 ih2 =>
    have := step_size env o configDir file ctx t toks ps
    rw [hs] at this
    simp only [Step.size, Step.rest, Step.finalPS] at this
    rw [(enterBlockCtx_calm stmt ctx ps1).1] at ih1
    have hb : Spec.size { stmt with block := some b } ≤ Spec.size stmt + sizeList b := by
      rw [size_eq, size_eq]
      show stmt.directive.length + 1 + strsSize stmt.args + (stmt.comment.getD []).length + sizeList b ≤ _
      omega
    rw [sizeList, sizeList_append, commentDirectives_size]
    omega

theorem RunFail.size {env : Env} {o : ParseOptions} {configDir file : Str} {ctx : Ctx} {toks : List Tok} {ps : PS} {e : Option GoErr} {toks' : List Tok}
    {ps' : PS} (h : RunFail env o configDir file ctx toks ps e toks' ps') :
    ps'.payErrors.length + 1 + toksSize toks' ≤ toksSize toks + ps.payErrors.length := by
  induction h with
  | fail ctx t toks ps e toks' ps' hs =>
    have := step_size env o configDir file ctx t toks ps
    rw [hs] at this
    simp only [Step.size, Step.rest, Step.finalPS] at this
    omega
  | next ctx t toks ps new toks1 ps1 e toks' ps' hs _ ih =>
    have := step_size env o configDir file ctx t toks ps
    rw [hs] at this
    simp only [Step.size, Step.rest, Step.finalPS] at this
    omega
  | inside ctx t toks ps stmt comments toks1 ps1 e toks' ps' hs _ ih =>
    have := step_size env o configDir file ctx t toks ps
    rw [hs] at this
    simp only [Step.size, Step.rest, Step.finalPS] at this
    rw [(enterBlockCtx_calm stmt ctx ps1).1] at ih
    omega
  | after ctx t toks ps stmt comments toks1 ps1 b toks2 ps2 e toks' ps' hs h1 _ ih =>
    have := step_size env o configDir file ctx t toks ps
    rw [hs] at this
    simp only [Step.size, Step.rest, Step.finalPS] at this
    have h1 := h1.size
    rw [(enterBlockCtx_calm stmt ctx ps1).1] at h1
    omega

/-! ## Files -/

/-- The texts that were read for the files of a payload. -/
def ReadFor (env : Env) (c : Config) (data : FileData) : Prop := ∃ n, env.openFile n c.file = .ok data

theorem FilesOk.size {env : Env} {o : ParseOptions} {configDir : Str} {ps : PS} {cs : List Config} {ps' : PS} (h : FilesOk env o configDir ps cs ps') :
    ∃ datas, List.Forall₂ (ReadFor env) cs datas ∧
      (cs.map fun c => sizeList c.parsed).sum + ps'.payErrors.length ≤ (datas.map fun d => toksSize (fileToks o d)).sum + ps.payErrors.length := by
  induction h with
  | nil ps _ => exact ⟨[], .nil, by simp⟩
  | ok ps incl rest data ds toks' ps1 cs ps' hin hop hr hf ih =>
    obtain ⟨datas, h1, h2⟩ := ih
    refine ⟨data :: datas, .cons ⟨_, hop⟩ h1, ?_⟩
    have := hr.size
    have e : (startFile ps rest).payErrors = ps.payErrors := rfl
    rw [e] at this
    simp only [List.map_cons, List.sum_cons]
    show sizeList ds + _ + _ ≤ _
    omega
  | bad ps incl rest data e toks' ps1 cs ps' hin hop hr hs hf ih =>
    obtain ⟨datas, h1, h2⟩ := ih
    refine ⟨data :: datas, .cons ⟨_, hop⟩ h1, ?_⟩
    have := hr.size
    have e1 : (startFile ps rest).payErrors = ps.payErrors := rfl
    have e2 : (handleError o incl.path ps1 e).payErrors.length = ps1.payErrors.length + 1 := by simp [handleError]
    rw [e1] at this
    simp only [List.map_cons, List.sum_cons]
    show sizeList [] + _ + _ ≤ _
    rw [sizeList]
    omega

/-- C72.  Without CombineConfigs all trees of a payload together, and its errors, are not larger than the tokens of its files. -/
theorem C72_tokens {env : Env} {fuel : Nat} {filename : Str} {o : ParseOptions} {p : Payload} (h : Parse env fuel filename o = .ok p)
    (ho : o.combineConfigs = false) :
    ∃ datas, List.Forall₂ (ReadFor env) p.config datas ∧
      (p.config.map fun c => sizeList c.parsed).sum + p.errors.length ≤ (datas.map fun d => toksSize (fileToks o d)).sum := by
  obtain ⟨cs, ps', h1, -, h2, -⟩ := Parse_ok h
  obtain rfl := h2 ho
  obtain ⟨datas, h3, h4⟩ := h1.size
  exact ⟨datas, h3, by simpa [initPS, rawPayload] using h4⟩

/-! ## Texts -/

theorem U.text_length (u : U) : 1 ≤ u.text.length := by cases u <;> simp [U.text]

theorem quotedValue_le (q : Char) (us : List U) : (quotedValue q us).length ≤ (textOf us).length := by
  induction us with
  | nil => exact Nat.le_refl _
  | cons u us ih =>
    have e1 : quotedValue q (u :: us) = (if u = .esc q then [q] else u.text) ++ quotedValue q us := rfl
    have e2 : textOf (u :: us) = u.text ++ textOf us := rfl
    rw [e1, e2, List.length_append, List.length_append]
    have := U.text_length u
    split
    · simp only [List.length_singleton]; omega
    · omega

theorem specToks_size {items : List Item} (hw : WF items) (line start : Int) (depth : Nat) (dup glued : Bool) :
    toksSize (specToks line start depth dup glued items) ≤ 2 * (unlex items).length + 1 := by
  induction items generalizing line start depth dup glued with
  | nil =>
    rw [specToks]
    split
    · exact Nat.le_refl _
    · exact Nat.zero_le _
  | cons i items ih =>
    have e : unlex (i :: items) = i.text ++ unlex items := rfl
    rw [e, List.length_append]
    cases i with
    | space c =>
      have := ih hw.2.2 (line + nls [c]) start depth dup false
      rw [specToks]; omega
    | word us =>
      obtain ⟨-, ⟨u, us', rfl, -⟩, -, hw⟩ := hw
      have := ih hw (line + nls (textOf (u :: us'))) (wordLine line (u :: us')) depth false true
      rw [specToks, toksSize_cons]
      have e2 : 1 ≤ (textOf (u :: us')).length := by
        have e2 : textOf (u :: us') = u.text ++ textOf us' := rfl
        have := U.text_length u
        rw [e2, List.length_append]; omega
      show (textOf (u :: us')).length + 1 + _ ≤ 2 * ((textOf (u :: us')).length + _) + 1
      omega
    | quoted q us closed =>
      have := ih hw.2.2.2 (line + nls (textOf us)) line depth false false
      have hq := quotedValue_le q us
      have el : (Item.quoted q us closed).text.length = 1 + (textOf us).length + (if closed then [q] else []).length := by
        simp only [Item.text, List.length_cons, List.length_append]; omega
      rw [specToks, toksSize_append, el]
      have : toksSize (if closed = true ∨ quotedValue q us ≠ [] then [⟨quotedValue q us, line, true, none⟩] else []) ≤ (quotedValue q us).length + 1 := by
        split
        · rw [toksSize_cons]; exact Nat.le_refl _
        · exact Nat.zero_le _
      omega
    | comment us fin =>
      have := ih hw.2.2 (line + nls fin.text) line depth dup false
      rw [specToks, toksSize_cons]
      have el : (Item.comment us fin).text.length = 1 + (textOf us).length + fin.text.length := by
        simp only [Item.text, List.length_cons, List.length_append]; omega
      rw [el, List.length_cons]
      omega
    | special c =>
      have el : (Item.special c).text.length = 1 := rfl
      rw [specToks, el]
      split
      · show 1 ≤ _; omega
      · split
        · show 1 ≤ _; omega
        · have := ih hw.2 line (if glued = true then start else line) (if c = '{' then depth + 1 else if c = '}' then depth - 1 else depth) true false
          rw [toksSize_cons]
          simp only [List.length_singleton]
          omega

/-- C72.  The tokens of a text are at most twice as large as the text (which is also an end of the file). -/
theorem C72_lex (s : Str) : toksSize (lex s) ≤ 2 * s.length + 1 := by
  obtain ⟨items, d, h1, h2, h3, h4⟩ := C03_every_text_is_items s
  rw [h4]
  have h5 := specToks_size h2 1 1 0 false false
  have h6 := congrArg List.length h1
  rw [List.length_append] at h6
  have h7 := List.length_filter_le (· ≠ '\r') s
  unfold toksOf
  omega

/-- C72.  Without CombineConfigs and external lexers a payload is at most about twice as large as the texts of its files. -/
theorem C72_linear {env : Env} {fuel : Nat} {filename : Str} {o : ParseOptions} {p : Payload} (h : Parse env fuel filename o = .ok p)
    (ho : o.combineConfigs = false) (hl : o.lexers = []) :
    ∃ datas, List.Forall₂ (ReadFor env) p.config datas ∧
      (p.config.map fun c => sizeList c.parsed).sum + p.errors.length ≤ (datas.map fun d => 2 * d.runes.length + 1).sum := by
  obtain ⟨datas, h1, h2⟩ := C72_tokens h ho
  refine ⟨datas, h1, Nat.le_trans h2 ?_⟩
  clear h1 h2
  induction datas with
  | nil => exact Nat.le_refl _
  | cons d datas ih =>
    simp only [List.map_cons, List.sum_cons]
    have : toksSize (fileToks o d) ≤ 2 * d.runes.length + 1 := by
      have e : fileToks o d = lex d.runes := by unfold fileToks; rw [hl]; rfl
      rw [e]; exact C72_lex _
    omega

/-- Two files of 26 and 4 characters; the second one is included twice, its tree is in the payload once. -/
example : (okPayload (exTwoFiles.map fun f => (f.name, f.tree))).config.map (fun c => sizeList c.parsed) = [25, 4] ∧
    exTwo.map (fun f => (f.2.length, toksSize (lex f.2))) = [(26, 33), (4, 6)] := by decide +kernel

end Verif
