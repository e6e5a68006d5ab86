import Verif.Spec.Source
import Verif.Spec.Rebuild
/-!
# The configurations that are accepted, and the trees they stand for

`Conf` is a grammar over tokens: which sequences of tokens are a configuration in a block context, and the directives they stand for.
-/
namespace Verif.Spec

/-- `s` cut at every `>`. -/
def cutGt : Str → List Str
  | [] => [[]]
  | c :: s => if c = '>' then [] :: cutGt s else
    match cutGt s with
    | [] => [[c]]
    | w :: ws => (c :: w) :: ws

/-- The path of a block context.  A `>` in the name of a block counts as a nesting, and a single block without a name as none. -/
def pathOf (ctx : List Str) : List Str := if ctx = [[]] then [] else ctx.flatMap cutGt

/-- What is to be checked, whether comments are kept, the directives to leave out, and the files that an include directive with some arguments stands for (`none`: it is wrong). -/
structure Rules where
  comments : Bool
  ignore : List Str
  strict : Bool
  skipCtx : Bool
  skipArgs : Bool
  sources : List (Str → Option (List Nat))
  names : List Str → Option (List Str)

/-- The statement is acceptable in the context. -/
def Rules.Ok (r : Rules) (ctx : List Str) (name : Str) (args : List Str) (term : Str) : Prop :=
  StmtOk r.sources r.strict r.skipCtx r.skipArgs (contextBit (pathOf ctx)) name args term

/-- The arguments of a statement: those of `if` without parentheses. -/
def StmtArgs (name : Str) (args args' : List Str) : Prop := if name = c!"if" then IfArgs args args' else args' = args

/-- An include directive stands for some files, maybe none. -/
def Rules.Found (r : Rules) (name : Str) (args : List Str) : Prop := name = c!"include" → (r.names args).isSome = true

/-- The directives for comments. -/
def commentsAt (line : Int) (texts : List Str) : List Directive := texts.map fun text => { directive := c!"#", line, args := [], comment := some text }

/-- The tokens are statements, each ended by `;` or a block of statements, and comments. -/
inductive Shape : List Tok → Prop
  | nil : Shape []
  | comment {t text toks} : CommentTok t text → Shape toks → Shape (t :: toks)
  | simple {t mid args texts semi toks} : WordTok t → Words mid args texts → Mark semi c!";" → Shape toks → Shape (t :: (mid ++ semi :: toks))
  | block {t mid args texts opening inner closing toks} : WordTok t → Words mid args texts → Mark opening c!"{" → Shape inner → Mark closing c!"}" →
      Shape toks → Shape (t :: (mid ++ opening :: (inner ++ closing :: toks)))

/-- `Conf r ctx ds toks`: in the block context `ctx`, the tokens `toks` are a configuration, namely `ds` (the links of include directives to files left out). -/
inductive Conf (r : Rules) : List Str → List Directive → List Tok → Prop
  | nil {ctx} : Conf r ctx [] []
  | comment {ctx t text ds toks} : r.comments = true → CommentTok t text → Conf r ctx ds toks →
      Conf r ctx ({ directive := c!"#", line := t.line, args := [], comment := some text } :: ds) (t :: toks)
  | skip {ctx t text ds toks} : r.comments = false → CommentTok t text → Conf r ctx ds toks → Conf r ctx ds (t :: toks)
  | param {ctx m t mid args texts semi ds toks} : InMap ctx m → WordTok t → Words mid args texts → Mark semi c!";" → MapArgs m t.value args.length →
      Conf r ctx ds toks →
      Conf r ctx ({ directive := t.value, line := t.line, args := args, isMapBlockParameter := true } :: ds) (t :: (mid ++ semi :: toks))
  | ignored {ctx t mid args texts semi ds toks} : (∀ m, ¬ InMap ctx m) → t.value ∈ r.ignore → WordTok t → Words mid args texts → Mark semi c!";" →
      Conf r ctx ds toks → Conf r ctx ds (t :: (mid ++ semi :: toks))
  | ignoredBlock {ctx t mid args texts opening inner closing ds toks} : (∀ m, ¬ InMap ctx m) → t.value ∈ r.ignore → WordTok t → Words mid args texts →
      Mark opening c!"{" → Shape inner → Mark closing c!"}" → Conf r ctx ds toks → Conf r ctx ds (t :: (mid ++ opening :: (inner ++ closing :: toks)))
  | simple {ctx t mid args args' texts semi ds toks} : (∀ m, ¬ InMap ctx m) → t.value ∉ r.ignore → WordTok t → Words mid args texts → Mark semi c!";" →
      r.Ok ctx t.value args c!";" → StmtArgs t.value args args' → r.Found t.value args' → Conf r ctx ds toks →
      Conf r ctx ({ directive := t.value, line := t.line, args := args' } :: ((if r.comments then commentsAt t.line texts else []) ++ ds))
        (t :: (mid ++ semi :: toks))
  | block {ctx t mid args args' texts opening b inner closing ds toks} : (∀ m, ¬ InMap ctx m) → t.value ∉ r.ignore → WordTok t → Words mid args texts →
      Mark opening c!"{" → r.Ok ctx t.value args c!"{" → StmtArgs t.value args args' → r.Found t.value args' →
      Conf r (enter ctx t.value) b inner → Mark closing c!"}" →
      Conf r ctx ds toks →
      Conf r ctx ({ directive := t.value, line := t.line, args := args', block := some b } ::
          ((if r.comments then commentsAt t.line texts else []) ++ ds))
        (t :: (mid ++ opening :: (inner ++ closing :: toks)))

end Verif.Spec
