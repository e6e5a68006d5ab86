import Verif.Spec.Grammar
/-!
# What is kept of a configuration with wrong statements

`Recover` extends the grammar of configurations (Spec/Grammar) by statements that are wrong: they are left out, with their blocks, and their lines are listed.
-/
namespace Verif.Spec

/-- The directive is known, and none of its masks for this context has a block or an expression: it is ended by `;` here. -/
def Rules.EndsHere (r : Rules) (ctx : List Str) (name : Str) : Prop :=
  Known r.sources name ∧ r.skipArgs = false ∧ ∃ b, contextBit (pathOf ctx) = some b ∧
    (∃ m, HasMask r.sources name m ∧ (r.skipCtx = true ∨ m.testBit b = true)) ∧
    ∀ m, HasMask r.sources name m → r.skipCtx = true ∨ m.testBit b = true → m.testBit 8 = false ∧ m.testBit 9 = false

/-- A name with which the message for an unknown directive looks like another one. -/
def OddName (name : Str) : Prop := ∃ s, name = s ++ c!" is not terminated by \";"

/-- `Recover r ctx ds lines toks`: in the block context `ctx`, the tokens `toks` are statements; those that are right are `ds`, those that are wrong stand on
the lines `lines`, in order. -/
inductive Recover (r : Rules) : List Str → List Directive → List Int → List Tok → Prop
  | nil {ctx} : Recover r ctx [] [] []
  | comment {ctx t text ds ls toks} : r.comments = true → CommentTok t text → Recover r ctx ds ls toks →
      Recover r ctx ({ directive := c!"#", line := t.line, args := [], comment := some text } :: ds) ls (t :: toks)
  | skip {ctx t text ds ls toks} : r.comments = false → CommentTok t text → Recover r ctx ds ls toks → Recover r ctx ds ls (t :: toks)
  | param {ctx m t mid args texts semi ds ls toks} : InMap ctx m → WordTok t → Words mid args texts → Mark semi c!";" → MapArgs m t.value args.length →
      Recover r ctx ds ls toks →
      Recover r ctx ({ directive := t.value, line := t.line, args := args, isMapBlockParameter := true } :: ds) ls (t :: (mid ++ semi :: toks))
  | wrongParam {ctx m t mid args texts semi ds ls toks} : InMap ctx m → WordTok t → Words mid args texts → Mark semi c!";" → ¬ MapArgs m t.value args.length →
      Recover r ctx ds ls toks → Recover r ctx ds (t.line :: ls) (t :: (mid ++ semi :: toks))
  | wrongParamBlock {ctx m t mid args texts opening inner closing ds ls toks} : InMap ctx m → WordTok t → Words mid args texts →
      Mark opening c!"{" → Shape inner → Mark closing c!"}" → Recover r ctx ds ls toks →
      Recover r ctx ds (t.line :: ls) (t :: (mid ++ opening :: (inner ++ closing :: toks)))
  | ignored {ctx t mid args texts semi ds ls toks} : (∀ m, ¬ InMap ctx m) → t.value ∈ r.ignore → WordTok t → Words mid args texts → Mark semi c!";" →
      Recover r ctx ds ls toks → Recover r ctx ds ls (t :: (mid ++ semi :: toks))
  | ignoredBlock {ctx t mid args texts opening inner closing ds ls toks} : (∀ m, ¬ InMap ctx m) → t.value ∈ r.ignore → WordTok t → Words mid args texts →
      Mark opening c!"{" → Shape inner → Mark closing c!"}" → Recover r ctx ds ls toks →
      Recover r ctx ds ls (t :: (mid ++ opening :: (inner ++ closing :: toks)))
  | simple {ctx t mid args args' texts semi ds ls toks} : (∀ m, ¬ InMap ctx m) → t.value ∉ r.ignore → WordTok t → Words mid args texts → Mark semi c!";" →
      r.Ok ctx t.value args c!";" → StmtArgs t.value args args' → r.Found t.value args' → Recover r ctx ds ls toks →
      Recover r ctx ({ directive := t.value, line := t.line, args := args' } :: ((if r.comments then commentsAt t.line texts else []) ++ ds)) ls
        (t :: (mid ++ semi :: toks))
  | wrong {ctx t mid args texts semi ds ls toks} : (∀ m, ¬ InMap ctx m) → t.value ∉ r.ignore → WordTok t → Words mid args texts → Mark semi c!";" →
      ¬ r.Ok ctx t.value args c!";" → ¬ OddName t.value → Recover r ctx ds ls toks → Recover r ctx ds (t.line :: ls) (t :: (mid ++ semi :: toks))
  | block {ctx t mid args args' texts opening b lb inner closing ds ls toks} : (∀ m, ¬ InMap ctx m) → t.value ∉ r.ignore → WordTok t →
      Words mid args texts → Mark opening c!"{" → r.Ok ctx t.value args c!"{" → StmtArgs t.value args args' → r.Found t.value args' →
      Recover r (enter ctx t.value) b lb inner → Mark closing c!"}" → Recover r ctx ds ls toks →
      Recover r ctx ({ directive := t.value, line := t.line, args := args', block := some b } ::
          ((if r.comments then commentsAt t.line texts else []) ++ ds)) (lb ++ ls)
        (t :: (mid ++ opening :: (inner ++ closing :: toks)))
  | wrongBlock {ctx t mid args texts opening inner closing ds ls toks} : (∀ m, ¬ InMap ctx m) → t.value ∉ r.ignore → WordTok t →
      Words mid args texts → Mark opening c!"{" → r.EndsHere ctx t.value → Shape inner → Mark closing c!"}" → Recover r ctx ds ls toks →
      Recover r ctx ds (t.line :: ls) (t :: (mid ++ opening :: (inner ++ closing :: toks)))

end Verif.Spec
