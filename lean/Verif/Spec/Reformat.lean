import Verif.Spec.UpToLines
import Verif.Spec.Items
import Mathlib.Data.List.Forall2
/-!
# Texts that differ only in their layout, and results that differ only in lines
-/
namespace Verif.Spec

/-- A word that means something else without quotes: a special character, or a comment. -/
def SpecialWord (v : Str) : Prop := v = c!"{" ∨ v = c!"}" ∨ v = c!";" ∨ v.head? = some '#'

/-- The same items, but for blanks between them, quotes and their kind, and a backslash at the end of a comment. -/
inductive SameItems : List Item → List Item → Prop
  | nil : SameItems [] []
  | left {c a b} : SameItems a b → SameItems (.space c :: a) b
  | right {c a b} : SameItems a b → SameItems a (.space c :: b)
  | special {c a b} : SameItems a b → SameItems (.special c :: a) (.special c :: b)
  | word {us a b} : SameItems a b → SameItems (.word us :: a) (.word us :: b)
  | quoted {q us q' us' closed a b} : quotedValue q us = quotedValue q' us' → SameItems a b → SameItems (.quoted q us closed :: a) (.quoted q' us' closed :: b)
  | bare {q us us' a b} : quotedValue q us = textOf us' → ¬ SpecialWord (textOf us') → SameItems a b → SameItems (.quoted q us true :: a) (.word us' :: b)
  | dressed {us q us' a b} : textOf us = quotedValue q us' → ¬ SpecialWord (textOf us) → SameItems a b → SameItems (.word us :: a) (.quoted q us' true :: b)
  | comment {us e e' a b} : SameItems a b → SameItems (.comment us e :: a) (.comment us e' :: b)

/-- Texts that differ only in layout: blanks and line feeds between names, arguments, comments and special characters, carriage returns, quotes around words and the kind of quotes. -/
def Reformatted (s s' : Str) : Prop :=
  ∃ a b d e, s.filter (· ≠ '\r') = unlex a ++ d ∧ WF a ∧ Dangling d ∧ s'.filter (· ≠ '\r') = unlex b ++ e ∧ WF b ∧ Dangling e ∧ SameItems a b

/-- The same errors but for the line, which may be at the end of the message. -/
inductive SameErr : GoErr → GoErr → Prop
  | other {m} : SameErr (.other m) (.other m)
  | parse {e : ParseError} {l : Option Int} : e.line.isSome = l.isSome → SameErr (.parse e) (.parse { e with line := l })
  | named {e : ParseError} {w : Str} {l l' : Int} :
      SameErr (.parse { e with what := w ++ c!":" ++ decimal l, line := some l }) (.parse { e with what := w ++ c!":" ++ decimal l', line := some l' })

/-- Tokens that differ only in lines and in quotes that do not matter. -/
structure SameTok (t t' : Tok) : Prop where
  value : t.value = t'.value
  quoted : t.quoted = t'.quoted ∨ ¬ SpecialWord t.value
  error : Option.Rel SameErr t.error t'.error

/-- The errors of configs and payloads have the line of their error. -/
structure SameConfig (c c' : Config) : Prop where
  file : c.file = c'.file
  status : c.status = c'.status
  errors : List.Forall₂ (fun e e' => SameErr e.error e'.error ∧ e.line.isSome = e'.line.isSome) c.errors c'.errors
  parsed : UpToLines c.parsed c'.parsed

/-- Payloads that differ only in lines.  (What an error callback returned is left out.) -/
structure SamePayload (p p' : Payload) : Prop where
  status : p.status = p'.status
  errors : List.Forall₂ (fun e e' => e.file = e'.file ∧ SameErr e.error e'.error ∧ e.line.isSome = e'.line.isSome) p.errors p'.errors
  config : List.Forall₂ SameConfig p.config p'.config

/-- Results that differ only in lines. -/
inductive SameRes {α β : Type} (R : α → β → Prop) : Res α → Res β → Prop
  | ok {a b} : R a b → SameRes R (.ok a) (.ok b)
  | err {e e'} : SameErr e e' → SameRes R (.err e) (.err e')
  | panic : SameRes R .panic .panic
  | fuel : SameRes R .fuel .fuel

end Verif.Spec
