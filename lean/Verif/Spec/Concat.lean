import Verif.Model.Lex
/-!
# Tokens and trees on later lines
-/
namespace Verif.Spec

/-- The token `n` lines later. -/
def laterTok (n : Int) (t : Tok) : Tok := { t with line := t.line + n }

mutual
/-- The directive `n` lines later, with its block. -/
def later (n : Int) : Directive → Directive
  | ⟨dd, dl, dargs, df, di, dblock, dc, dm⟩ => ⟨dd, dl + n, dargs, df, di, laterOpt n dblock, dc, dm⟩
def laterOpt (n : Int) : Option (List Directive) → Option (List Directive)
  | none => none
  | some ds => some (laterList n ds)
/-- The directives `n` lines later. -/
def laterList (n : Int) : List Directive → List Directive
  | [] => []
  | d :: ds => later n d :: laterList n ds
end

/-- The text is empty or ends with a line feed. -/
def WholeLines (s : Str) : Prop := s = [] ∨ ∃ s', s = s' ++ ['\n']

end Verif.Spec
