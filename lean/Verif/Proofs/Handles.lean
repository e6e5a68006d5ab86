import Verif.Model.Handles
/-!
# File handles: the run with handles is the run without, and it is nested
-/
namespace Verif
open Spec

/-- The events of the rest of a function: what is left is nested but for the handles of the frame, which are closed in their order. -/
inductive Rest : List Nat → List HEvent → Prop
  | done {t} : Nested t → Rest [] t
  | pop {k : Nat} {fr t u} : Nested t → Rest fr u → Rest (k :: fr) (t ++ .close k :: u)

theorem Spec.Nested.append {t u : List HEvent} (h : Nested t) (hu : Nested u) : Nested (t ++ u) := by
  induction h with
  | nil => exact hu
  | failed k _ ih => exact .failed k ih
  | @handle k t v h1 _ _ ih2 =>
    have := Nested.handle k h1 ih2
    simpa [List.append_assoc] using this

theorem Rest.nested {t : List HEvent} (h : Rest [] t) : Nested t := by cases h; assumption

theorem Rest.prepend {fr : List Nat} {t u : List HEvent} (ht : Nested t) (h : Rest fr u) : Rest fr (t ++ u) := by
  cases h with
  | done h => exact .done (ht.append h)
  | pop h1 h2 =>
    rw [← List.append_assoc]
    exact .pop (ht.append h1) h2

theorem Rest.opened {k : Nat} {fr : List Nat} {u : List HEvent} (h : Rest (k :: fr) u) : Rest fr (.open_ k :: u) := by
  cases h with
  | @pop _ _ t u h1 h2 =>
    have := h2.prepend (.handle k h1 .nil)
    simpa [List.append_assoc] using this

theorem Rest.failed {k : Nat} {fr : List Nat} {u : List HEvent} (h : Rest fr u) : Rest fr (.failed k :: u) := h.prepend (.failed k .nil)

theorem Rest.closes (fr : List Nat) : Rest fr (fr.map .close) := by
  induction fr with
  | nil => exact .done .nil
  | cons k fr ih => exact .pop (t := []) .nil ih

/-- The calls of open have the numbers from `a` up to `b`. -/
def Calls (a b : Nat) (t : List HEvent) : Prop := a ≤ b ∧ calls t = List.range' a (b - a)

theorem calls_append (t u : List HEvent) : calls (t ++ u) = calls t ++ calls u := List.filterMap_append

theorem calls_closes (fr : List Nat) : calls (fr.map .close) = [] := by
  induction fr with
  | nil => rfl
  | cons k fr ih => exact ih

theorem Calls.append {a b c : Nat} {t u : List HEvent} (h : Calls a b t) (h' : Calls b c u) : Calls a c (t ++ u) := by
  refine ⟨Nat.le_trans h.1 h'.1, ?_⟩
  rw [calls_append, h.2, h'.2]
  have := h.1; have := h'.1
  have e : List.range' b (c - b) = List.range' (a + (b - a)) (c - b) := by congr 1; omega
  rw [e, List.range'_append_1]
  congr 1; omega

theorem Calls.nil (a : Nat) : Calls a a [] := ⟨Nat.le_refl _, by simp [calls]⟩

theorem Calls.closes (a : Nat) (fr : List Nat) : Calls a a (fr.map .close) := ⟨Nat.le_refl _, by simp [calls_closes]⟩

/-- A run with handles: its result is that of the run without; unless the fuel runs out, it closes what it opens and what is in its frame. -/
def HOk {α : Type} (a : Nat) (frame : List Nat) (R : Res α × List Tok × PS) (x : (Res α × List Tok × PS) × List HEvent) : Prop :=
  x.1 = R ∧ (R.1 ≠ .fuel → Rest frame x.2 ∧ Calls a R.2.2.opens x.2)

theorem HOk.ret {α : Type} (frame : List Nat) (r : Res α) (toks : List Tok) (ps : PS) : HOk ps.opens frame (r, toks, ps) (ret frame (r, toks, ps)) :=
  ⟨rfl, fun _ => ⟨.closes frame, .closes _ frame⟩⟩

theorem HOk.after {α : Type} {a b : Nat} {frame frame' : List Nat} {R : Res α × List Tok × PS} {x : (Res α × List Tok × PS) × List HEvent} {t : List HEvent}
    (h : HOk b frame' R x) (hf : ∀ u, Rest frame' u → Rest frame (t ++ u)) (hc : Calls a b t) : HOk a frame R (after t x) :=
  ⟨h.1, fun hr => ⟨hf _ (h.2 hr).1, hc.append (h.2 hr).2⟩⟩

theorem HOk.fuel {α : Type} (a : Nat) (frame : List Nat) (toks : List Tok) (ps : PS) (t : List HEvent) : HOk (α := α) a frame (.fuel, toks, ps) ((.fuel, toks, ps), t) :=
  ⟨rfl, fun h => absurd rfl h⟩

theorem enterBlockCtx_opens (d : Directive) (ctx : Ctx) (ps : PS) : (enterBlockCtx d ctx ps).2.opens = ps.opens := by
  unfold enterBlockCtx
  split
  · rfl
  · split <;> rfl

theorem addInclude_opens (file : Str) (ctx : Ctx) (stmt : Directive) (ps : PS) (f : Str) : (addInclude file ctx stmt ps f).2.opens = ps.opens := by
  unfold addInclude
  cases ps.included.lookup f <;> rfl

theorem addIncludes_opens (file : Str) (ctx : Ctx) (stmt : Directive) (ps : PS) (fs : List Str) : (addIncludes file ctx stmt ps fs).2.opens = ps.opens := by
  induction fs generalizing stmt ps with
  | nil => rfl
  | cons f fs ih => rw [addIncludes, ih, addInclude_opens]

/-- What `doInclude` opens. -/
theorem doInclude_opens (env : Env) (o : ParseOptions) (configDir file : Str) (ctx : Ctx) (stmt : Directive) (ps : PS) :
    Calls ps.opens (doInclude env o configDir file ctx stmt ps).2.opens (includeOpens env o configDir stmt ps).1 ∧
      ∀ fr u, Rest ((includeOpens env o configDir stmt ps).2 ++ fr) u → Rest fr ((includeOpens env o configDir stmt ps).1 ++ u) := by
  unfold doInclude includeOpens
  by_cases hc : (!o.singleFile && stmt.directive == c!"include") = true
  · rw [if_pos hc, if_pos hc]
    cases stmt.args with
    | nil => exact ⟨.nil _, fun _ _ h => h⟩
    | cons pattern _ =>
      dsimp only
      generalize (if (!env.isAbs pattern) = true then env.join configDir pattern else pattern) = pat
      by_cases hm : hasMagic pat = true
      · rw [if_pos hm, if_pos hm]
        cases env.glob ps.globs pat with
        | error e => exact ⟨.nil _, fun _ _ h => h⟩
        | ok fs =>
          refine ⟨?_, fun _ _ h => h⟩
          dsimp only
          rw [addIncludes_opens]
          exact .nil _
      · rw [if_neg hm, if_neg hm]
        cases env.openFile ps.opens pat with
        | error e =>
          refine ⟨?_, fun _ _ h => h.failed⟩
          dsimp only
          by_cases hs : (!o.stopParsingOnError) = true
          · rw [if_pos hs]
            exact ⟨Nat.le_succ _, by simp [calls, HEvent.call?, handleError]⟩
          · rw [if_neg hs]
            exact ⟨Nat.le_succ _, by simp [calls, HEvent.call?]⟩
        | ok f =>
          refine ⟨?_, fun _ _ h => h.opened⟩
          dsimp only
          rw [addIncludes_opens]
          exact ⟨Nat.le_succ _, by simp [calls, HEvent.call?]⟩
  · rw [if_neg hc, if_neg hc]
    exact ⟨.nil _, fun _ _ h => h⟩

theorem parseH_ok (env : Env) (o : ParseOptions) (configDir file : Str) (fuel : Nat) (ctx : Ctx) (toks : List Tok) (parsed : List Directive) (ps : PS)
    (frame : List Nat) : HOk ps.opens frame (parse env o configDir file fuel ctx toks parsed ps) (parseH env o configDir file fuel ctx toks parsed ps frame) := by
  induction fuel generalizing ctx toks parsed ps frame with
  | zero => exact .fuel ..
  | succ fuel ih =>
    cases toks with
    | nil => exact .ret ..
    | cons t toks =>
      rw [parse, parseH]
      cases t.error with
      | some e => exact .ret ..
      | none =>
        dsimp only
        by_cases h1 : t.is c!"}" = true
        · rw [if_pos h1, if_pos h1]; exact .ret ..
        rw [if_neg h1, if_neg h1]
        by_cases h2 : t.isCommentTok = true
        · rw [if_pos h2, if_pos h2]
          by_cases h3 : o.parseComments = true
          · rw [if_pos h3, if_pos h3]; exact ih ..
          · rw [if_neg h3, if_neg h3]; exact ih ..
        rw [if_neg h2, if_neg h2]
        rcases readArgs o.parseComments [] [] toks with _ | ⟨args, comments, term, toks⟩
        · exact .ret ..
        dsimp only
        cases mapCtx ctx.vals with
        | some m =>
          dsimp only
          cases analyzeMapBody file _ term.value m with
          | some e =>
            dsimp only
            by_cases h3 : o.stopParsingOnError = true
            · rw [if_pos h3, if_pos h3]; exact .ret ..
            · rw [if_neg h3, if_neg h3]; exact ih (ps := handleError ..) ..
          | none => exact ih ..
        | none =>
          dsimp only
          by_cases h3 : contains o.ignoreDirectives t.value = true
          · rw [if_pos h3, if_pos h3]; exact ih ..
          rw [if_neg h3, if_neg h3]
          cases analyze file _ term.value ctx.vals o with
          | some perr =>
            dsimp only
            by_cases h4 : (!o.stopParsingOnError) = true
            · rw [if_pos h4, if_pos h4]
              by_cases h5 : hasSuffix perr.what notTerminated = true
              · rw [if_pos h5, if_pos h5]
                by_cases h6 : (term.value != c!"}" && !term.quoted) = true
                · rw [if_pos h6, if_pos h6]; exact ih (ps := handleError ..) ..
                · rw [if_neg h6, if_neg h6]; exact .ret (ps := handleError ..) ..
              · rw [if_neg h5, if_neg h5]; exact ih (ps := handleError ..) ..
            · rw [if_neg h4, if_neg h4]; exact .ret ..
          | none =>
            dsimp only
            cases prepIf _ with
            | none => exact .ret ..
            | some stmt =>
              dsimp only
              obtain ⟨hc, hf⟩ := doInclude_opens env o configDir file ctx stmt ps
              generalize includeOpens env o configDir stmt ps = op at hc hf ⊢
              refine HOk.after ?_ (hf frame) hc
              rcases doInclude env o configDir file ctx stmt ps with ⟨r, ps'⟩
              clear hc hf
              cases r with
              | ok stmt' =>
                dsimp only
                by_cases h4 : term.is c!"{" = true
                · rw [if_pos h4, if_pos h4]
                  have hi := ih (enterBlockCtx stmt' ctx ps').1 toks [] (enterBlockCtx stmt' ctx ps').2 []
                  rw [enterBlockCtx_opens] at hi
                  rcases hp : parse env o configDir file fuel (enterBlockCtx stmt' ctx ps').1 toks [] (enterBlockCtx stmt' ctx ps').2 with ⟨r, toks', ps''⟩
                  rw [hp] at hi
                  rcases hph : parseH env o configDir file fuel (enterBlockCtx stmt' ctx ps').1 toks [] (enterBlockCtx stmt' ctx ps').2 [] with ⟨x, tr⟩
                  rw [hph] at hi
                  obtain ⟨rfl, hi⟩ := hi
                  cases r with
                  | ok blocks =>
                    obtain ⟨hi1, hi2⟩ := hi (by simp)
                    exact HOk.after (ih ..) (fun u hu => hu.prepend hi1.nested) hi2
                  | err e =>
                    obtain ⟨hi1, hi2⟩ := hi (by simp)
                    exact HOk.after (.ret ..) (fun u hu => hu.prepend hi1.nested) hi2
                  | panic =>
                    obtain ⟨hi1, hi2⟩ := hi (by simp)
                    exact HOk.after (.ret ..) (fun u hu => hu.prepend hi1.nested) hi2
                  | fuel => exact .fuel ..
                · rw [if_neg h4, if_neg h4]; exact ih ..
              | err e => exact .ret ..
              | panic => exact .ret ..
              | fuel => exact .fuel ..

/-- The files that were opened, in order: the number of the handle and the events while the file was parsed. -/
def fileEvents (l : List (Nat × List HEvent)) : List HEvent := l.flatMap fun x => .open_ x.1 :: x.2

/-- The loop over the files: the handles of the files parsed stay open, everything else is nested in between. -/
structure FilesH (a : Nat) (frame : List Nat) (n : Nat) (R : Res (List Config) × PS) (x : ((Res (List Config) × PS) × List Nat) × List HEvent)
    (l : List (Nat × List HEvent)) (f : List HEvent) : Prop where
  frame : x.1.2 = (l.map (·.1)).reverse ++ frame
  nested : ∀ y ∈ l, Nested y.2
  events : x.2 = fileEvents l ++ f
  last : f = [] ∨ (∃ e, R.1 = .err e) ∧ ∃ k, f = [.failed k]
  calls : Calls a R.2.opens x.2
  ok : ∀ cs, R.1 = .ok cs → cs.length = n + l.length

theorem FilesH.cons {a b k : Nat} {frame : List Nat} {n : Nat} {R : Res (List Config) × PS} {x : ((Res (List Config) × PS) × List Nat) × List HEvent}
    {l : List (Nat × List HEvent)} {f tr : List HEvent} (h : FilesH b (k :: frame) (n + 1) R x l f) (ht : Nested tr) (hc : Calls a b (.open_ k :: tr)) :
    FilesH a frame n R (after (.open_ k :: tr) x) ((k, tr) :: l) f where
  frame := by
    show x.1.2 = _
    rw [h.frame]; simp
  nested := by
    intro y hy
    rcases List.mem_cons.mp hy with rfl | hy
    · exact ht
    · exact h.nested y hy
  events := by
    show _ ++ x.2 = _
    rw [h.events]; simp [fileEvents]
  last := h.last
  calls := hc.append h.calls
  ok := by
    intro cs hcs
    rw [h.ok cs hcs, List.length_cons]; omega

theorem FilesH.nil (frame : List Nat) (n : Nat) (r : Res (List Config)) (ps : PS) (h : ∀ cs, r = .ok cs → cs.length = n) :
    FilesH ps.opens frame n (r, ps) (((r, ps), frame), []) [] [] where
  frame := rfl
  nested := by intro y hy; cases hy
  events := rfl
  last := Or.inl rfl
  calls := .nil _
  ok := h

theorem Calls.one (a : Nat) : Calls a (a + 1) [.open_ a] := ⟨Nat.le_succ _, by simp [calls, HEvent.call?]⟩

theorem parseFilesH_ok (env : Env) (o : ParseOptions) (configDir : Str) (fuel : Nat) (ps : PS) (configs : List Config) (frame : List Nat) :
    (parseFilesH env o configDir fuel ps configs frame).1.1 = parseFiles env o configDir fuel ps configs ∧
      ((parseFiles env o configDir fuel ps configs).1 ≠ .fuel →
        ∃ l f, FilesH ps.opens frame configs.length (parseFiles env o configDir fuel ps configs) (parseFilesH env o configDir fuel ps configs frame) l f) := by
  induction fuel generalizing ps configs frame with
  | zero => exact ⟨rfl, fun h => absurd rfl h⟩
  | succ fuel ih =>
    rw [parseFiles, parseFilesH]
    cases ps.includes with
    | nil => exact ⟨rfl, fun _ => ⟨[], [], .nil frame _ _ _ (fun cs h => by cases h; rfl)⟩⟩
    | cons incl rest =>
      dsimp only
      cases env.openFile ps.opens incl.path with
      | error e =>
        refine ⟨rfl, fun _ => ⟨[], [.failed ps.opens], ?_⟩⟩
        exact ⟨rfl, by intro y hy; (cases hy), rfl, Or.inr ⟨⟨e, rfl⟩, ps.opens, rfl⟩, ⟨Nat.le_succ _, by simp [Spec.calls, HEvent.call?]⟩, by intro cs h; cases h⟩
      | ok data =>
        dsimp only
        have hi := parseH_ok env o configDir incl.path ((lexWith (extLexersOf o.lexers) data.runes).length + 1) incl.ctx (lexWith (extLexersOf o.lexers) data.runes) []
          { ps with includes := rest, opens := ps.opens + 1, cfgStatus := c!"ok", cfgErrors := [] } []
        generalize parse env o configDir incl.path ((lexWith (extLexersOf o.lexers) data.runes).length + 1) incl.ctx (lexWith (extLexersOf o.lexers) data.runes) []
          { ps with includes := rest, opens := ps.opens + 1, cfgStatus := c!"ok", cfgErrors := [] } = R at hi ⊢
        generalize parseH env o configDir incl.path ((lexWith (extLexersOf o.lexers) data.runes).length + 1) incl.ctx (lexWith (extLexersOf o.lexers) data.runes) []
          { ps with includes := rest, opens := ps.opens + 1, cfgStatus := c!"ok", cfgErrors := [] } [] = X at hi ⊢
        obtain ⟨x, tr⟩ := X
        obtain ⟨rfl, hi⟩ := hi
        obtain ⟨r, toks', ps'⟩ := x
        have hcalls : r ≠ .fuel → Nested tr ∧ Calls ps.opens ps'.opens (.open_ ps.opens :: tr) := by
          intro hr
          obtain ⟨h1, h2⟩ := hi hr
          exact ⟨h1.nested, (Calls.one ps.opens).append h2⟩
        cases r with
        | ok parsed =>
          obtain ⟨h1, h2⟩ := hcalls (by simp)
          dsimp only
          obtain ⟨h3, h4⟩ := ih ps' (configs ++ [{ file := incl.path, status := ps'.cfgStatus, errors := ps'.cfgErrors, parsed := parsed }]) (ps.opens :: frame)
          refine ⟨h3, fun hf => ?_⟩
          obtain ⟨l, f, h5⟩ := h4 hf
          rw [List.length_append] at h5
          exact ⟨_, f, h5.cons h1 h2⟩
        | err e =>
          obtain ⟨h1, h2⟩ := hcalls (by simp)
          dsimp only
          by_cases hs : o.stopParsingOnError = true
          · rw [if_pos hs, if_pos hs]
            refine ⟨rfl, fun _ => ⟨[(ps.opens, tr)], [], ?_⟩⟩
            have := FilesH.cons (n := configs.length) (FilesH.nil (ps.opens :: frame) (configs.length + 1) (.err e) ps' (by intro cs h; cases h)) h1 h2
            simpa [after] using this
          · rw [if_neg hs, if_neg hs]
            obtain ⟨h3, h4⟩ := ih (handleError o incl.path ps' e) (configs ++ [{ file := incl.path, status := (handleError o incl.path ps' e).cfgStatus, errors := (handleError o incl.path ps' e).cfgErrors, parsed := [] }]) (ps.opens :: frame)
            refine ⟨h3, fun hf => ?_⟩
            obtain ⟨l, f, h5⟩ := h4 hf
            rw [List.length_append] at h5
            exact ⟨_, f, h5.cons h1 h2⟩
        | panic =>
          obtain ⟨h1, h2⟩ := hcalls (by simp)
          refine ⟨rfl, fun _ => ⟨[(ps.opens, tr)], [], ?_⟩⟩
          have := FilesH.cons (n := configs.length) (FilesH.nil (ps.opens :: frame) (configs.length + 1) .panic ps' (by intro cs h; cases h)) h1 h2
          simpa [after] using this
        | fuel => exact ⟨rfl, fun h => absurd rfl h⟩

theorem fileEvents_rest {l : List (Nat × List HEvent)} (h : ∀ y ∈ l, Nested y.2) {fr : List Nat} {u : List HEvent} (hu : Rest ((l.map (·.1)).reverse ++ fr) u) :
    Rest fr (fileEvents l ++ u) := by
  induction l generalizing fr with
  | nil => exact hu
  | cons x l ih =>
    have : Rest (x.1 :: fr) (fileEvents l ++ u) := ih (fun y hy => h y (List.mem_cons_of_mem _ hy)) (by simpa using hu)
    have := (this.prepend (h x (by simp))).opened
    simpa [fileEvents] using this

end Verif
