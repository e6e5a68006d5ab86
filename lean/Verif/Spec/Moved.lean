import Verif.Model.Parse
import Mathlib.Data.List.Forall2
/-!
# A configuration in another place

`ρ` gives every path its new path.  The files have the same texts at the new paths, and the patterns of include directives stand for the new paths.
-/
namespace Verif.Spec

mutual
/-- The directive with another file name, also in its block. -/
def moved (g : Str → Str) : Directive → Directive
  | ⟨dd, dl, dargs, df, di, dblock, dc, dm⟩ => ⟨dd, dl, dargs, g df, di, movedOpt g dblock, dc, dm⟩
def movedOpt (g : Str → Str) : Option (List Directive) → Option (List Directive)
  | none => none
  | some ds => some (movedList g ds)
/-- The directives with other file names. -/
def movedList (g : Str → Str) : List Directive → List Directive
  | [] => []
  | d :: ds => moved g d :: movedList g ds
end

/-- `p` stands after the word `include` in the tokens, with nothing but comments between. -/
def PatternIn (toks : List Tok) (p : Str) : Prop :=
  ∃ pre t mid u post, toks = pre ++ t :: (mid ++ u :: post) ∧ t.value = c!"include" ∧ (∀ c ∈ mid, c.value.head? = some '#') ∧ u.value = p

/-- The path that a pattern of an include directive stands for. -/
def patternPath (env : Env) (configDir p : Str) : Str := if env.isAbs p then p else env.join configDir p

/-- The files of `env` are at their new paths in `env'`. -/
structure MovedFiles (ρ : Str → Str) (o : ParseOptions) (env env' : Env) (configDir configDir' : Str) : Prop where
  /-- Different paths have different new paths. -/
  inj : ∀ a b, ρ a = ρ b → a = b
  /-- The new path has the same text, or cannot be opened either. -/
  files : ∀ k f, (∃ d, env.openFile k f = .ok d ∧ env'.openFile k (ρ f) = .ok d) ∨ ∃ x x', env.openFile k f = .error x ∧ env'.openFile k (ρ f) = .error x'
  /-- A pattern has the same matches in the same order, or is malformed in both. -/
  globs : ∀ k q, (∃ l, env.glob k q = .ok l ∧ env'.glob k (ρ q) = .ok (l.map ρ) ∧ sortStrings (l.map ρ) = (sortStrings l).map ρ) ∨
    ∃ x x', env.glob k q = .error x ∧ env'.glob k (ρ q) = .error x' ∧ x'.line? = x.line?
  /-- The patterns in the texts stand for the new paths. -/
  patterns : ∀ k f d, env.openFile k f = .ok d → ∀ p, PatternIn (lexWith (extLexersOf o.lexers) d.runes) p →
    patternPath env' configDir' p = ρ (patternPath env configDir p) ∧ hasMagic (ρ (patternPath env configDir p)) = hasMagic (patternPath env configDir p)
  /-- Maps are iterated in some order. -/
  order : ∀ l, (env.mapOrder l).Perm l
  order' : ∀ l, (env'.mapOrder l).Perm l

/-- The same errors, but for the paths in them and the texts of the errors of the file system. -/
inductive MovedErr (ρ : Str → Str) (env env' : Env) : GoErr → GoErr → Prop
  | parse {e : ParseError} : MovedErr ρ env env' (.parse e) (.parse { e with file := e.file.map ρ })
  /-- An include directive without arguments: the path is in the message. -/
  | named {e : ParseError} {w f v : Str} : MovedErr ρ env env' (.parse { e with what := w ++ f ++ v }) (.parse { e with what := w ++ ρ f ++ v, file := e.file.map ρ })
  /-- An include directive whose file cannot be opened. -/
  | missing {e : ParseError} {k f x x'} : env.openFile k f = .error x → env'.openFile k (ρ f) = .error x' →
      MovedErr ρ env env' (.parse { e with what := x.error }) (.parse { e with what := x'.error, file := e.file.map ρ })
  /-- A file cannot be opened. -/
  | noFile {k f x x'} : env.openFile k f = .error x → env'.openFile k (ρ f) = .error x' → MovedErr ρ env env' x x'
  /-- A pattern is malformed. -/
  | pattern {k q x x'} : env.glob k q = .error x → env'.glob k (ρ q) = .error x' → MovedErr ρ env env' x x'
  /-- The files include each other. -/
  | cycle : MovedErr ρ env env' cycleError cycleError

/-- The same config at its new path. -/
structure MovedConfig (E : GoErr → GoErr → Prop) (ρ g : Str → Str) (c c' : Config) : Prop where
  file : c'.file = ρ c.file
  status : c'.status = c.status
  errors : List.Forall₂ (fun e e' => E e.error e'.error ∧ e'.line = e.line) c.errors c'.errors
  parsed : c'.parsed = movedList g c.parsed

/-- The same payload with the new paths.  (What an error callback returned is left out.) -/
structure MovedPayload (E : GoErr → GoErr → Prop) (ρ g : Str → Str) (p p' : Payload) : Prop where
  status : p'.status = p.status
  errors : List.Forall₂ (fun e e' => e'.file = ρ e.file ∧ E e.error e'.error ∧ e'.line = e.line) p.errors p'.errors
  config : List.Forall₂ (MovedConfig E ρ g) p.config p'.config

/-- The same results. -/
inductive MovedRes {α β : Type} (E : GoErr → GoErr → Prop) (R : α → β → Prop) : Res α → Res β → Prop
  | ok {a b} : R a b → MovedRes E R (.ok a) (.ok b)
  | err {e e'} : E e e' → MovedRes E R (.err e) (.err e')
  | panic : MovedRes E R .panic .panic
  | fuel : MovedRes E R .fuel .fuel

end Verif.Spec
