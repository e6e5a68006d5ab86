import Verif.Spec.Source
/-!
# The files a configuration can reach

Read off the tokens of the files only, without regard to what the parser makes of them.
-/
namespace Verif.Spec

/-- The tokens contain the word include, and the first word after it (there may be comments between) is `a`. -/
def Mentions (toks : List Tok) (a : Str) : Prop :=
  ∃ pre t mid texts u post, toks = pre ++ t :: (mid ++ u :: post) ∧ WordTok t ∧ t.value = c!"include" ∧ Words mid [] texts ∧ WordTok u ∧ u.value = a

/-- A path, relative to `dir`. -/
def pathIn (isAbs : Str → Bool) (join : Str → Str → Str) (dir a : Str) : Str := if isAbs a then a else join dir a

/-- The path is a pattern. -/
def IsPattern (path : Str) : Prop := '*' ∈ path ∨ '?' ∈ path ∨ '[' ∈ path

mutual
/-- The file is `main`, or the include of a file that can be reached stands for it: `toks n f` are the tokens of `f`, `matches_ n p` the files that match a pattern (each
at the `n`-th time they are asked for), `path` are the paths of the arguments. -/
inductive CanReach (toks : Nat → Str → Option (List Tok)) (matches_ : Nat → Str → Option (List Str)) (path : Str → Str) (main : Str) : Str → Prop
  | main : CanReach toks matches_ path main main
  | file {p} : Asked toks matches_ path main p → ¬ IsPattern p → CanReach toks matches_ path main p
  | pattern {p n l f} : Asked toks matches_ path main p → IsPattern p → matches_ n p = some l → f ∈ l → CanReach toks matches_ path main f
/-- The path or pattern stands after include in a file that can be reached. -/
inductive Asked (toks : Nat → Str → Option (List Tok)) (matches_ : Nat → Str → Option (List Str)) (path : Str → Str) (main : Str) : Str → Prop
  | mk {f n ts a} : CanReach toks matches_ path main f → toks n f = some ts → Mentions ts a → Asked toks matches_ path main (path a)
end

end Verif.Spec
