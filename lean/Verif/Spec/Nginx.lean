import Verif.Spec.Items
/-!
# Specification: how nginx itself reads a configuration file

`ngx_conf_read_token` (nginx, src/core/ngx_conf_file.c) as a state machine over characters, together with the counting of
blocks of `ngx_conf_parse`.  The C file is not part of /repo; this is a transcription of what it does: each state stands
for a combination of its flags `last_space`, `need_space`, `sharp_comment`, `d_quoted`, `s_quoted`; `esc` is
`quoted`, `var` is `variable`, `args` is `cf->args->nelts`.  Left out: the limit of 4096 bytes for one parameter; nginx
reads bytes, but all the characters it looks for are ASCII characters.
Independent of the model of the lexer.
-/
namespace Verif.Spec

/-- What nginx reads: a parameter, as written between the blanks or quotes (`quote`), or one of `;`, `{`, `}`. -/
inductive NgxTok where
  | word (raw : Str) (quote : Option Char)
  | special (c : Char)
deriving Repr, DecidableEq

/-- Where the reader is. -/
inductive NgxAt where
  /-- `last_space` -/
  | blank
  /-- `need_space`: directly after a closing quote -/
  | need
  | word
  | quoted (q : Char)
  /-- `sharp_comment` -/
  | comment
deriving Repr, DecidableEq

/-- The state of the reader. -/
structure NgxSt where
  pos : NgxAt := .blank
  raw : Str := []
  esc : Bool := false
  var : Bool := false
  args : Nat := 0
  depth : Nat := 0
deriving Repr, DecidableEq

/-- Blanks. -/
def ngxBlank (c : Char) : Bool := c = ' ' || c = '\t' || c = '\r' || c = '\n'

/-- `;` and `{` end a statement. -/
def ngxEnd (st : NgxSt) (c : Char) : Option (List NgxTok × NgxSt) := some ([.special c], { depth := if c = '{' then st.depth + 1 else st.depth })

/-- A character after a blank; `none` is an error. -/
def ngxStart (st : NgxSt) (c : Char) : Option (List NgxTok × NgxSt) :=
  if ngxBlank c then some ([], { args := st.args, depth := st.depth })
  else if c = ';' ∨ c = '{' then if st.args = 0 then none else ngxEnd st c
  else if c = '}' then if st.args ≠ 0 ∨ st.depth = 0 then none else some ([.special '}'], { depth := st.depth - 1 })
  else if c = '#' then some ([], { pos := .comment, args := st.args, depth := st.depth })
  else if c = '\\' then some ([], { pos := .word, raw := [c], esc := true, args := st.args, depth := st.depth })
  else if c = '"' ∨ c = '\'' then some ([], { pos := .quoted c, args := st.args, depth := st.depth })
  else some ([], { pos := .word, raw := [c], var := c = '$', args := st.args, depth := st.depth })

/-- A character; `none` is an error. -/
def ngxStep (st : NgxSt) (c : Char) : Option (List NgxTok × NgxSt) :=
  match st.pos with
  | .comment => some ([], if c = '\n' then { args := st.args, depth := st.depth } else st)
  | .need =>
    if ngxBlank c then some ([], { args := st.args, depth := st.depth })
    else if c = ';' ∨ c = '{' then ngxEnd st c
    else if c = ')' then ngxStart st c
    else none
  | .blank => ngxStart st c
  | .word =>
    if st.esc then some ([], { st with raw := st.raw ++ [c], esc := false })
    else if c = '{' ∧ st.var then some ([], { st with raw := st.raw ++ [c] })
    else if c = '\\' then some ([], { st with raw := st.raw ++ [c], esc := true, var := false })
    else if c = '$' then some ([], { st with raw := st.raw ++ [c], var := true })
    else if ngxBlank c then some ([.word st.raw none], { args := st.args + 1, depth := st.depth })
    else if c = ';' ∨ c = '{' then (ngxEnd st c).map fun r => (.word st.raw none :: r.1, r.2)
    else some ([], { st with raw := st.raw ++ [c], var := false })
  | .quoted q =>
    if st.esc then some ([], { st with raw := st.raw ++ [c], esc := false })
    else if c = '\\' then some ([], { st with raw := st.raw ++ [c], esc := true })
    else if c = q then some ([.word st.raw (some q)], { pos := .need, args := st.args + 1, depth := st.depth })
    else some ([], { st with raw := st.raw ++ [c] })

/-- The rest of a file; it may not end within a statement or a block. -/
def ngxRun (st : NgxSt) : Str → Option (List NgxTok)
  | [] => if (st.pos = .blank ∨ st.pos = .comment) ∧ st.args = 0 ∧ st.depth = 0 then some [] else none
  | c :: cs => (ngxStep st c).bind fun r => (ngxRun r.2 cs).map fun toks => r.1 ++ toks

/-- What nginx reads from a file; `none` if it is rejected by the reader. -/
def ngxRead (s : Str) : Option (List NgxTok) := ngxRun {} s

/-- The value nginx gives to what is written: some backslashes are dropped, `\t`, `\r` and `\n` are control characters. -/
def ngxValue : Str → Str
  | [] => []
  | [c] => [c]
  | c :: d :: rest =>
    if c = '\\' then
      (if d = '"' ∨ d = '\'' ∨ d = '\\' then [d] else if d = 't' then ['\t'] else if d = 'r' then ['\r'] else if d = 'n' then ['\n'] else [c, d]) ++ ngxValue rest
    else c :: ngxValue (d :: rest)

/-- The text between quotes without the backslashes before quotes of this kind. -/
def bareQuotes (q : Char) : Str → Str
  | [] => []
  | [c] => [c]
  | c :: d :: rest => if c = '\\' then (if d = q then [q] else [c, d]) ++ bareQuotes q rest else c :: bareQuotes q (d :: rest)

/-- What should become of it: value, and whether it is marked as quoted. -/
def NgxTok.shown : NgxTok → Str × Bool
  | .word raw none => (raw, false)
  | .word raw (some q) => (bareQuotes q raw, true)
  | .special c => ([c], false)

/-- A word without backslashes and (Unicode) blanks in which `{` and `}` occur only as in `${name}`. -/
def Bare (w : Str) : Prop := '\\' ∉ w ∧ (∀ c ∈ w, isSpaceRune c = false) ∧ ∃ b, WordPos.run (.out false) (w.map .plain) = some (.out b)

instance : DecidablePred Bare := fun w =>
  inferInstanceAs (Decidable ('\\' ∉ w ∧ (∀ c ∈ w, isSpaceRune c = false) ∧ ∃ b, WordPos.run (.out false) (w.map .plain) = some (.out b)))

end Verif.Spec
