import Verif.Spec.Inline
import Verif.Spec.Placed
/-!
# Trees that differ in one place
-/
namespace Verif.Spec

/-- `Exchanged n x y ds ds'`: in one place of `ds`, maybe in a block, there are the directives `x`, and `ds'` has the directives `y` instead; what follows this place is `n` lines
later.  (The comments among the arguments of a directive `d`, which come after it in the tree, have its line.) -/
inductive Exchanged (n : Int) (x y : List Directive) : List Directive → List Directive → Prop
  | here {before after : List Directive} : Exchanged n x y (before ++ (x ++ after)) (before ++ (y ++ laterList n after))
  | inside {before : List Directive} {d : Directive} {block block' comments after : List Directive} : Exchanged n x y block block' →
      (∀ c ∈ comments, c.directive = c!"#" ∧ c.line = d.line) →
      Exchanged n x y (before ++ { d with block := some block } :: (comments ++ after)) (before ++ { d with block := some block' } :: (comments ++ laterList n after))

/-- `stackAt st w toks`: the contexts of the blocks that are open after the tokens, the innermost first.  `st`: those that were open before; `w`: the name of the statement that
was begun before, if there is one. -/
def stackAt : List (List Str) → Option Str → List Tok → List (List Str)
  | st, _, [] => st
  | st, w, t :: toks =>
    if t.quoted = false ∧ t.value.head? = some '#' then stackAt st w toks
    else if t.quoted = false ∧ t.value = c!";" then stackAt st none toks
    else if t.quoted = false ∧ t.value = c!"{" then stackAt (enter (st.headD []) (w.getD []) :: st) none toks
    else if t.quoted = false ∧ t.value = c!"}" then stackAt st.tail none toks
    else stackAt st (some (w.getD t.value)) toks

/-- The context after the tokens, in a file that is read in the context `ctx`. -/
def contextAt (toks : List Tok) (ctx : List Str := []) : List Str := (stackAt [ctx] none toks).headD []

end Verif.Spec
