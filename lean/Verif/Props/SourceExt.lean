import Verif.Spec.SourceToks
import Verif.Props.Source
import Verif.Props.LuaTree
/-!
# C28 with external lexers
-/
namespace Verif
open Spec

theorem statements_of {toks : List Tok} : ∀ {b : Bool},
    (∀ cs u rest, toks = cs ++ u :: rest → (∀ c ∈ cs, ∃ text, CommentTok c text) → if b then ¬ Mark u c!"{" ∧ ¬ Mark u c!";" else ¬ Mark u c!"}") →
    MarksApart toks → StatementsEnd toks → Statements b toks := by
  induction toks with
  | nil => intros; trivial
  | cons t ts ih =>
    intro b hb ha he
    have he' : StatementsEnd ts := fun a x cs u r h => he (t :: a) x cs u r (by rw [h]; rfl)
    have ha' : MarksApart ts := fun a x cs u r h => ha (t :: a) x cs u r (by rw [h]; rfl)
    unfold Statements
    by_cases hc : t.isCommentTok = true
    · rw [if_pos hc]
      refine ih (fun cs u rest h hcs => ?_) ha' he'
      refine hb (t :: cs) u rest (by rw [h]; rfl) ?_
      intro c hm
      rcases List.mem_cons.mp hm with rfl | hm
      · exact isCommentTok_iff.mp hc
      · exact hcs c hm
    · rw [if_neg hc]
      have h0 := hb [] t ts rfl (by simp)
      refine ⟨fun h => ?_, fun h => ?_, ih (fun cs u rest h hcs => ?_) ha' he'⟩
      · rw [h] at h0; exact ⟨is_mark_false.mpr h0.1, is_mark_false.mpr h0.2⟩
      · rw [h] at h0; exact is_mark_false.mpr (by simpa using h0)
      · by_cases ht : t.isTerm = true
        · rw [if_pos ht]
          have hm := isTerm_mark.mp ht
          exact ⟨fun hu => ha [] t cs u rest (by rw [h]; rfl) hcs (Or.inl hu) hm, fun hu => ha [] t cs u rest (by rw [h]; rfl) hcs (Or.inr hu) hm⟩
        · rw [if_neg ht]
          intro hu
          rcases he [] t cs u rest (by rw [h]; rfl) hcs hu with h1 | h1 | h1 | h1
          · exact ht (isTerm_mark.mpr (Or.inl h1))
          · exact ht (isTerm_mark.mpr (Or.inr (Or.inl h1)))
          · exact ht (isTerm_mark.mpr (Or.inr (Or.inr h1)))
          · exact hc (isCommentTok_iff.mpr h1)

theorem net_braces (toks : List Tok) : net toks = ((braces toks).count '{' : Int) - (braces toks).count '}' := by
  induction toks with
  | nil => rfl
  | cons t ts ih =>
    have hb : braces (t :: ts) = (if t.quoted = false ∧ (t.value = c!"{" ∨ t.value = c!"}") then t.value else []) ++ braces ts := rfl
    rw [hb, List.count_append, List.count_append, net, ih]
    by_cases h1 : t.is c!"{" = true
    · obtain ⟨hq, hv⟩ := is_mark.mp h1
      rw [if_pos h1, if_pos ⟨hq, Or.inl hv⟩, hv]
      simp; omega
    · rw [if_neg h1]
      by_cases h2 : t.is c!"}" = true
      · obtain ⟨hq, hv⟩ := is_mark.mp h2
        rw [if_pos h2, if_pos ⟨hq, Or.inr hv⟩, hv]
        simp; omega
      · rw [if_neg h2, if_neg]
        · simp
        · rintro ⟨hq, hv | hv⟩
          · exact h1 (is_mark.mpr ⟨hq, hv⟩)
          · exact h2 (is_mark.mpr ⟨hq, hv⟩)

/-- The braces of a list of tokens that is split in two. -/
theorem braces_append (a b : List Tok) : braces (a ++ b) = braces a ++ braces b := by
  unfold braces; rw [List.flatMap_append]

/-- C28 for any external lexers.  In a payload without errors, nothing being ignored, every config has a file contents it was read from; if its tokens, with those of the external
lexers, start with a word, have balanced braces, and `;`, `{`, `}` end statements and blocks, then they are the source of the tree. -/
theorem C28_external {env : Env} {fuel : Nat} {filename : Str} {o : ParseOptions} {p : Payload} (h : Parse env fuel filename o = .ok p)
    (hi : o.ignoreDirectives = []) (hcomb : o.combineConfigs = false) (hs : p.status = c!"ok") {n : Nat} {c : Config}
    (hc : p.config[n]? = some c) :
    ∃ data, ParsesFile env o filename n c.file data ∧
      ∀ toks, toks = lexWith (extLexersOf o.lexers) data.runes → StartsWithWord toks → MarksApart toks → StatementsEnd toks → Balanced (braces toks) →
        Source o.parseComments c.parsed toks := by
  obtain ⟨cs, ps', hok, -, hraw, -⟩ := Parse_ok h
  have hp := hraw hcomb
  have he : ps'.payErrors = [] := by
    rcases (C17_status h).1 with ⟨h1, -⟩ | ⟨-, h1⟩
    · rw [hs] at h1; simp at h1
    · rw [hp] at h1; exact h1
  have hcs : cs[n]? = some c := by rw [hp] at hc; exact hc
  obtain ⟨ps1, incl, rest, data, hm, hin, hfile, ho⟩ := hok.parses n c hcs
  refine ⟨data, ⟨ps1, incl, rest, hm, hin, hfile, ho⟩, ?_⟩
  rintro toks rfl hst ha hend hbal
  have hft : fileToks o data = lexWith (extLexersOf o.lexers) data.runes := rfl
  have hd := hm.drop hok
  have hdrop : cs.drop n = c :: cs.drop (n + 1) := by
    obtain ⟨hlt, hget⟩ := List.getElem?_eq_some_iff.mp hcs
    rw [List.drop_eq_getElem_cons hlt, hget]
  rw [hdrop] at hd
  have hstm : Statements true (lexWith (extLexersOf o.lexers) data.runes) :=
    statements_of (fun cs u rest h hcs => by
      have := hst cs u rest h hcs
      rw [if_pos rfl]; tauto) ha hend
  generalize hx : c :: cs.drop (n + 1) = l at hd
  cases hd with
  | nil => cases hx
  | bad _ _ _ _ _ _ _ _ _ hi' ho' hr hs hf =>
    have := hf.errors_grow
    rw [he, List.prefix_nil] at this
    simp [handleError] at this
  | ok _ _ _ _ ds toks' ps1 _ _ hi' ho' hr hf =>
    cases hx
    rw [hin] at hi'; cases hi'; rw [ho] at ho'; cases ho'
    have g1 := hf.errors_grow
    rw [he, List.prefix_nil] at g1
    have g2 := (payErrors_rel o incl.path).runOk hr
    rw [g1, List.prefix_nil] at g2
    obtain ⟨pre, h1, h2, h3⟩ := hr.source hi (by rw [g1, g2]) (by rw [hft]; exact hstm)
    rw [hft] at h1
    rcases h3 with ⟨body, cl, rfl, k1, k2, k3⟩ | ⟨rfl, k⟩
    · have hb := hbal.1 (braces (body ++ [cl])) (by rw [h1, braces_append (body ++ [cl])]; exact List.prefix_append _ _)
      have hn := net_braces (body ++ [cl])
      rw [net_append, net_close k1] at hn
      omega
    · rw [List.append_nil] at h1
      rw [← h1] at k
      rcases k with ⟨k, -⟩ | k
      · exact k
      · rw [net_braces, hbal.2] at k
        omega

theorem Statements.tail {x : Tok} {ts : List Tok} {b : Bool} (h : Statements b (x :: ts)) : ∃ b', Statements b' ts := by
  unfold Statements at h
  by_cases hx : x.isCommentTok = true
  · rw [if_pos hx] at h; exact ⟨b, h⟩
  · rw [if_neg hx] at h; exact ⟨x.isTerm, h.2.2⟩

theorem Statements.first {cs : List Tok} {u : Tok} {r : List Tok} {b : Bool} (h : Statements b (cs ++ u :: r)) (hcs : ∀ c ∈ cs, ∃ text, CommentTok c text)
    (hu : u.isTerm = true) : (b = true → u.is c!"{" = false ∧ u.is c!";" = false) ∧ (b = false → u.is c!"}" = false) := by
  induction cs with
  | nil =>
    rw [List.nil_append] at h
    unfold Statements at h
    rw [if_neg (by simp [isTerm_not_comment hu])] at h
    exact ⟨h.1, h.2.1⟩
  | cons x cs ih =>
    rw [List.cons_append] at h
    unfold Statements at h
    rw [if_pos (isCommentTok_iff.mpr (hcs x (by simp)))] at h
    exact ih h fun c hc => hcs c (by simp [hc])

theorem Statements.between {a : List Tok} {t : Tok} {cs : List Tok} {u : Tok} {r : List Tok} (hcs : ∀ c ∈ cs, ∃ text, CommentTok c text) (ht : t.isCommentTok = false)
    (hu : u.isTerm = true) : ∀ {b : Bool}, Statements b (a ++ t :: (cs ++ u :: r)) →
    (t.isTerm = true → u.is c!"{" = false ∧ u.is c!";" = false) ∧ (t.isTerm = false → u.is c!"}" = false) := by
  induction a with
  | nil =>
    intro b h
    rw [List.nil_append] at h
    unfold Statements at h
    rw [if_neg (by simp [ht])] at h
    exact h.2.2.first hcs hu
  | cons x a ih =>
    intro b h
    obtain ⟨b', h⟩ := h.tail
    exact ih h

/-- A test for the two conditions. -/
theorem Statements.spec {b : Bool} {toks : List Tok} (h : Statements b toks) : MarksApart toks ∧ StatementsEnd toks := by
  constructor
  · intro a t cs u r e hcs hu ht
    subst e
    have hut : u.isTerm = true := isTerm_mark.mpr (by tauto)
    have htt : t.isTerm = true := isTerm_mark.mpr ht
    have := (h.between hcs (isTerm_not_comment htt) hut).1 htt
    rcases hu with hu | hu
    · rw [is_mark.mpr hu] at this; simp at this
    · rw [is_mark.mpr hu] at this; simp at this
  · intro a t cs u r e hcs hu
    subst e
    have hut : u.isTerm = true := isTerm_mark.mpr (by tauto)
    by_cases hc : t.isCommentTok = true
    · exact Or.inr (Or.inr (Or.inr (isCommentTok_iff.mp hc)))
    · by_cases htt : t.isTerm = true
      · have := isTerm_mark.mp htt; tauto
      · have := (h.between hcs (by simpa using hc) hut).2 (by simpa using htt)
        rw [is_mark.mpr hu] at this; cases this

instance Statements.dec : (b : Bool) → (toks : List Tok) → Decidable (Statements b toks)
  | _, [] => isTrue trivial
  | b, t :: ts =>
    have := Statements.dec b ts
    have := Statements.dec t.isTerm ts
    by unfold Statements; infer_instance

/-- A file with a Lua block, a comment and other directives. -/
def exLuaFile : Str := c!"a {\n  content_by_lua_block {b\n} # c\n  d \"e f\";\n}"

theorem exLuaFile_toks : lexWith (extLexersOf exLuaFree.lexers) exLuaFile =
    [⟨c!"a", 1, false, none⟩, ⟨c!"{", 1, false, none⟩, ⟨c!"content_by_lua_block", 2, false, none⟩, ⟨c!"b\n", 3, true, none⟩, ⟨c!";", 3, false, none⟩,
      ⟨c!"# c", 3, false, none⟩, ⟨c!"d", 4, false, none⟩, ⟨c!"e f", 4, true, none⟩, ⟨c!";", 4, false, none⟩, ⟨c!"}", 5, false, none⟩] := by decide +kernel

theorem exLuaFile_statements : Statements true (lexWith (extLexersOf exLuaFree.lexers) exLuaFile) := by decide +kernel

theorem startsWithWord_cons {t : Tok} {r : List Tok} (h : WordTok t) : StartsWithWord (t :: r) := by
  intro cs u rest e hcs
  cases cs with
  | nil => cases e; have := h.2; tauto
  | cons x cs =>
    cases e
    obtain ⟨text, hx⟩ := hcs _ (List.mem_cons_self)
    exact absurd hx (h.1 text)

/-- The hypotheses of `C28_external` are met by the tokens of this file. -/
example : Source true [blk c!"a" 1 [] [dir c!"content_by_lua_block" 2 [c!"b\n"], { dir c!"#" 3 [] with comment := some c!" c" }, dir c!"d" 4 [c!"e f"]]]
    (lexWith (extLexersOf exLuaFree.lexers) exLuaFile) := by
  have hp : Parse (exEnv [(c!"f", exLuaFile)]) 2 c!"f" exLuaFree =
      .ok (okPayload [(c!"f", [blk c!"a" 1 [] [dir c!"content_by_lua_block" 2 [c!"b\n"], { dir c!"#" 3 [] with comment := some c!" c" }, dir c!"d" 4 [c!"e f"]]])]) := by
    decide +kernel
  obtain ⟨data, ⟨ps, incl, rest, -, -, hf, ho⟩, h⟩ := C28_external hp rfl rfl rfl (n := 0) rfl
  have hd : data.runes = exLuaFile := by
    rw [hf] at ho
    change (Except.ok _ : Except GoErr FileData) = _ at ho
    cases ho; rfl
  refine h _ (by rw [hd]) ?_ exLuaFile_statements.spec.1 exLuaFile_statements.spec.2 ?_
  · rw [exLuaFile_toks]
    exact startsWithWord_cons (wordTok_iff.mpr (by decide))
  · have hb : braces (lexWith (extLexersOf exLuaFree.lexers) exLuaFile) = ['{', '}'] := by decide +kernel
    rw [hb]
    refine ⟨fun p hp => ?_, by decide⟩
    obtain ⟨q, hq⟩ := hp
    rcases p with _ | ⟨x, _ | ⟨y, _ | ⟨z, p⟩⟩⟩
    · simp
    · cases hq; decide
    · cases hq; decide
    · cases hq

/-- With the Lua lexer the tree need not be the source: the argument `;` of `set_by_lua_block` ends the statement, and the code becomes a directive. -/
theorem C28_false_set : Parse (exEnv [(c!"f", c!"set_by_lua_block ; {a} x;")]) 2 c!"f" exLuaFree =
    .ok (okPayload [(c!"f", [dir c!"set_by_lua_block" 1 [], dir c!"a" 1 [], dir c!"x" 1 []])]) := by decide +kernel

/-- With the Lua lexer a semicolon after the block is not an error but the name of a directive. -/
theorem C28_false_lua : Parse (exEnv [(c!"f", c!"content_by_lua_block {a}; b;")]) 2 c!"f" exLuaFree =
    .ok (okPayload [(c!"f", [dir c!"content_by_lua_block" 1 [c!"a"], dir c!";" 1 [c!"b"]])]) := by decide +kernel

end Verif
