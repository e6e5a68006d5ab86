import Verif.Model.Lex
/-!
# lua.go: the Lua external lexer and builder
-/
namespace Verif

/-- lua.go:9 (`setByLuaBlock`). -/
def setByLuaBlock : Str := c!"set_by_lua_block"

/-- lua.go:25-44 `directiveNames`. -/
def luaDirectiveNames : List Str := [
  c!"init_by_lua_block",
  c!"init_worker_by_lua_block",
  c!"exit_worker_by_lua_block",
  c!"set_by_lua_block",
  c!"content_by_lua_block",
  c!"server_rewrite_by_lua_block",
  c!"rewrite_by_lua_block",
  c!"access_by_lua_block",
  c!"header_filter_by_lua_block",
  c!"body_filter_by_lua_block",
  c!"log_by_lua_block",
  c!"balancer_by_lua_block",
  c!"ssl_client_hello_by_lua_block",
  c!"ssl_certificate_by_lua_block",
  c!"ssl_session_fetch_by_lua_block",
  c!"ssl_session_store_by_lua_block"]

/-- lex.go:114-122 `SubScanner.Scan` as seen by `Line()`: the line after reading `c`. -/
def scanLine (line : Int) (c : Char) : Int := if c == '\n' then line + 1 else line

/-- lua.go:110-172, the loop that collects the Lua block.  `n` counts runes consumed so far.
The branches for `tokenDepth < 0` (lua.go:131-135) and `tokenDepth == 0` (lua.go:161-169) are kept although the
depth is at least 1 inside the loop.  `s.Err()` (lua.go:117-120) is nil after a successful `Scan`. -/
def luaBody : (depth : Int) → (inQuotes : Bool) → (quoteType : Str) → (tok : Str) →
    (line : Int) → (n : Nat) → List Char → List Tok × Nat
  | _, _, _, _, _, n, [] => ([], n)
  | depth, inQuotes, quoteType, tok, line, n, c :: cs =>
    let line := scanLine line c
    let n := n + 1
    if c == '{' && !inQuotes then
      let depth := depth + 1
      luaBody depth inQuotes quoteType (if depth > 1 then tok ++ [c] else tok) line n cs
    else if c == '}' && !inQuotes then
      let depth := depth - 1
      if depth < 0 then
        ([{ value := [], line := 0, error := some (lexError c!"unexpected \"}\"" line) }], n)
      else if depth == 0 then
        ([{ value := tok, line := line, quoted := true }, { value := c!";", line := line }], n)
      else luaBody depth inQuotes quoteType (tok ++ [c]) line n cs
    else if c == '"' || c == '\'' then
      if !inQuotes then luaBody depth true [c] (tok ++ [c]) line n cs
      else if [c] == quoteType then luaBody depth false quoteType (tok ++ [c]) line n cs
      else luaBody depth inQuotes quoteType (tok ++ [c]) line n cs
    else
      if isSpace [c] && depth == 0 then luaBody depth inQuotes quoteType tok line n cs
      else if depth == 0 then ([{ value := [c], line := line }], n)
      else luaBody depth inQuotes quoteType (tok ++ [c]) line n cs

/-- lua.go:92-108, the check that the block starts with an opening brace. -/
def luaStart : (line : Int) → (n : Nat) → List Char → List Tok × Nat
  | _, n, [] => ([], n)
  | line, n, c :: cs =>
    let line := scanLine line c
    let n := n + 1
    if !isSpace [c] then
      if c != '{' then
        ([{ value := [], line := 0, error := some (lexError c!"expected \"{\" to start lua block" line) }], n)
      else luaBody 1 false [] [] line n cs
    else luaStart line n cs

/-- lua.go:68-90, the argument of `set_by_lua_block`: leading whitespace is skipped (only while `arg` is empty), the
argument ends at the next whitespace rune (which is consumed). -/
def luaSetArg : (arg : Str) → (line : Int) → (n : Nat) → List Char → List Tok × Nat
  | _, _, n, [] => ([], n)
  | arg, line, n, c :: cs =>
    let line := scanLine line c
    let n := n + 1
    if isSpace [c] then
      if arg != [] then
        let r := luaStart line n cs
        ({ value := arg, line := line } :: r.1, r.2)
      -- lua.go:81-86: the inner loop reads on until a rune that is not whitespace
      else luaSetArg arg line n cs
    else luaSetArg (arg ++ [c]) line n cs

/-- lua.go:55-176 `Lua.Lex`. -/
def luaLex (matchedToken : Str) : ExtLexer := fun rest line =>
  if matchedToken == setByLuaBlock then luaSetArg [] line 0 rest else luaStart line 0 rest

/-- lua.go:47-49 `RegisterLexer`.  `Lua.Lex` receives the matched name, so the registration is one per name. -/
def luaRegisterLexer : List RegisterLexer :=
  luaDirectiveNames.map fun n => { l := luaLex n, stringTokens := [n] }

/-- lua.go:184-195 `Lua.Build`. -/
def luaBuild (stmt : Directive) : Str :=
  if stmt.directive == setByLuaBlock then
    match stmt.args with
    | a0 :: a1 :: _ => stmt.directive ++ c!" " ++ a0 ++ c!" {" ++ a1 ++ c!"}"
    | _ => stmt.directive
  else
    match stmt.args with
    | a0 :: _ => stmt.directive ++ c!" {" ++ a0 ++ c!"}"
    | [] => stmt.directive

end Verif
