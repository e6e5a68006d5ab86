# Formal model of nginx-go-crossplane: design

## Layout

* `properties.jsonl` - the properties (C01, C02, ...), in terms of the API.
* `lean/Verif/Model/*.lean` - model of the Go code, function by function; each definition cites file and lines.
  `lean/Verif/Model/Tables/*.lean` are generated from the Go tables by `scripts/gen_tables.py` (text translation).
* `lean/Verif/Spec/*.lean` - small specifications the theorems refer to, independent of the model's helpers.
* `lean/Verif/Proofs/*.lean` - helper lemmas.
* `lean/Verif/Props/*.lean` - the property theorems, each with an `example` showing its hypotheses are met by a concrete,
  non-trivial case.
* `lean/Verif/Proofs/CharTable.lean` has a term elaborator that writes a table with its strings as lists of characters, to make kernel evaluation
  feasible; its output is checked by the kernel to be equal to the table, so the elaborator is not trusted.
* `MANIFEST.json` - property -> theorems.  `seeded/LOG.jsonl` - wrong-program experiments.
  In the log, `claim` is what the edit was aimed at, `failed` is where the build of the edited model failed, and `claims_without_proof` are the theorems whose
  proofs use one of those (computed from the dependencies in the unedited project, newer theorems added later without a new run).  A failing proof does not show
  that the statement is false of the edited model; where the statement was evaluated on a witness, or the build stopped before the claim, a `note` says so.
* `scripts/conformance/` - checks the executable model against the expected values written in the repository's
  tests (read as text).  These are tests, not proofs; they support the claim that the model is the code.

## Trusted base

* The Lean 4.33.0 kernel and the axioms `propext`, `Classical.choice`, `Quot.sound` only (listed per theorem in the
  section "Axioms" at the end).  No own axioms, no `sorry`, no `native_decide`/`bv_decide`.
* That the definitions in `Verif/Model` describe the Go code (hand translation; tables translated by script).
* Spec/Nginx (only for C99, C100 and C101) is a transcription of nginx's `ngx_conf_read_token`, which is not part of /repo and was not at hand; they are about this specification.
* The Go standard library behaves as described in the model comments (`strings`, `unicode.IsSpace`, `strconv.Quote`,
  `bufio.Scanner`, `utf8`, `sort.Strings`, `encoding/json` at tree level, slices' append/growth rule, channels).

### Modelled

| Go | Lean |
|---|---|
| lex.go (all) | `Model/Lex` (value level), `Model/Chan` (goroutine + channel), `Model/ChanExt` (with the goroutines of external lexers), `Model/ParseChan` (`Parse` with one lexer goroutine per file), `Model/ParseExt` (`Parse` with these and the goroutines of external lexers), `Model/Utf8` (rune scanner) |
| lua.go (all) | `Model/Lua` |
| parse.go (all) | `Model/Parse`, `Model/Handles` (the same with the file handles it opens and closes), `Model/ParseShare` (the options between calls) |
| analyze.go (all; 18 tables) | `Model/Analyze`, `Model/Tables/*` |
| analyze_map.go (all) | `Model/Analyze` |
| util.go (all) | `Model/Str`, `Model/Analyze`, `Model/Combine`, `Model/Goroutines`, `Model/Heap` (combining, with objects in memory), `Model/Build` |
| types.go, errors.go (all) | `Model/Types`, `Model/Json` |
| build.go, buffer.go (all) | `Model/Build`, `Model/BuildState`, `Model/BuildRace`, `Model/BuildPanic` |
| internal/generator: merge, filter, override, name map; cmd/generate/cmd_util.go | `Model/Gen` |
| internal/generator: extraction from C sources with regular expressions | `Model/GenSrc` |
| internal/generator: walk over the files, the output template; cmd/generate/main.go after flag parsing | `Model/GenOut` |
| scripts/generate/configs/*.json | `Model/Tables/Configs` (made by scripts/gen_configs.py) |

### Not modelled

* Go's `regexp`, `html/template` and `flag` packages in general: only what the generator uses of them is modelled (the four regular
  expressions are lists of literals and repeated classes with leftmost-first matching; of the template: text, `range`, `if`, escaping of values).
* JSON decoding of generator configurations; scripts/generate/generate.sh.
* Memory and time limits, `int` overflow (e.g. of depth times Indent in `margin`), what the lexer's goroutine reads from a file after it was closed (in `Model/ParseChan` it gets any tokens, C76; in `Model/ParseExt` any runes, C88), the OS.
* Strings containing invalid UTF-8 in hand-made payloads (the lexer never produces them: C09).
* Pointer identity of shared `*Directive`s, except in combining (`Model/Heap`, C87). (`Parse` creates fresh ones.)
* How slices of more than 16 elements grow, which depends on the version of Go: `growLarge` (`Model/Parse`) is an opaque function of which only `n < growLarge n` is known
  (an `opaque` definition of an inhabited type, not an axiom), so the theorems hold for every such function.

### Representation choices

* A Go string is a list of code points (`Str := List Char`).  `len` in bytes is only compared with 0, 1, 2 where code points
  give the same answer.
* `Parse` runs against an environment `Env`: `openFile` and `glob` are arbitrary functions of (number of earlier calls,
  argument), so the file system may change during the parse; path functions and Go's map iteration order are arbitrary.
* Panics are explicit (`Res.panic`, `none` for `Build`).  Unbounded recursion is fuel with an explicit `Res.fuel`; theorems show
  where fuel is never exhausted, all other theorems hold for every fuel.
* `blockCtx` carries backing array identity and capacity so that the aliasing of `append` is modelled.

## Findings: where the code does not have the natural property

Each is proved as a negative theorem (concrete witness) next to the positive `_partial` theorem.

1. `Parse` panics on `a{if ();}` (C13): `prepareIfArgs` slices `[1:0]`; the statement check does not run in an unknown context.
2. `Enquote` does not quote an argument starting with `#`; rebuilt, it becomes a comment (C40).
3. `Enquote` renders non-printable characters as Go escapes (`\t`, ` `), which the lexer does not undo (C40).
4. `Enquote` of a string ending in an odd number of backslashes produces an unterminated quote; `\;x` is emitted unquoted (C40).
5. An `if` whose first argument was quoted gains quotes on every rebuild (C41/C42).
6. JSON drops an empty block: `events {}` becomes `events;` (C51).  A payload with errors cannot be decoded at all.
7. Error tokens in argument position are not checked (C31).
8. Errors inside skipped blocks are discarded (C31): `IgnoreDirectives` and an unclosed block give status ok.
9. A failing reader is taken for end of file (C12).
10. An unknown directive, or any directive in an unknown context, may be ended by `}`, which is swallowed (C28).
11. `enterBlockCtx` appends to a shared slice: a queued include context of length >= 4 can be overwritten by a later sibling
    block, so the included file is checked in the wrong context (C29).
12. An external lexer also triggers on a prefix of a longer word and at the start of a line inside arguments (C10).
13. A lone backslash at end of file is dropped (C03 covers it as a stated case).
14. `Build` panics for a negative `Indent` (C45).
15. Two comments on one line are merged into one when rebuilt (C42, C44).
16. An error message that merely ends in ` is not terminated by ";"` because of the directive's name is treated as such.
17. A reader that stops early leaks the lexer goroutine when more tokens remain than the channel holds (C02).
18. `Combined` on a hand-made payload: cyclic indices never terminate, a negative index panics (C37/C39).
19. The generator maps `NGX_CONF_TAKE7` to `ngxConfTake7`, which is not declared in analyze.go.
20. A block named `http>server` is taken for `server` inside `http` by the statement check (contexts are joined with `>`; `C24_accepts_exactly`).
21. A special character that directly follows a multi-line word is reported on the line where the word starts (C05).
22. A word starting with an escaped line feed is reported on the following line; the token for the error at the end of the file has the
    line of the last token (C05).
23. Some masks of the Plus and OTel tables (`status`, `header`, `trusted_certificate`) name no context, so these directives are rejected everywhere (C34).
24. A quoted token does not start a new directive position, and a line feed that ends a word does not either, so external lexers are tried
    at unexpected places (C10).  `{` directly after a registered name is consumed before the external lexer runs.
25. With SkipDirectiveContextCheck and a source that answers with no masks, the error has an empty text (C27).
26. `http{server{if "( )" {}}}` passes the check of expressions and then panics (C13).
27. Comments are directives named `#`, but IgnoreDirectives does not apply to them (C22).
28. With CombineConfigs the errors of the one config belong to several files (C17).
29. `include` with one argument inside a map-like block is a parameter of the block, not an include.
30. A `{` as first token of a file is taken for the name of a directive; the parser stops at the matching `}` and drops the rest of the file,
    with its lexer errors, without any error (C28, C31).
31. A comment within a parameter of a map-like block is lost even with ParseComments (C28).
32. Building again can change the text: a comment after a closing brace on its line moves (`a { b; } #c`) (C42).
33. `a "#b";` is built as `a #b;`, so a second parse loses the argument and the semicolon (C40, C42).
34. `Enquote` also changes `\\;` (emitted unquoted), `\'"`, and strings whose backslashes end up before a quote (C40).
35. An `if` whose first argument needs quotes cannot be built: the parenthesis is written inside the quotes (C41).
36. An `if` inside a map-like block is built with parentheses, but parsing such a parameter does not remove them; the last argument of an `if` that ends in an
    escaped blank loses it; an `if` without arguments is built as `if ()`, whose parse panics (C41).
37. A comment that ends in an odd number of backslashes loses one when it is built and lexed again; a text that ends in a backslash changes when trailing blanks are trimmed
    (C43).
38. External lexers are looked up for every non-empty prefix of a token; an argument directly before a line feed is taken for a directive position;
    the flag is not reset after a quoted token, and a quoted string with a line feed turns it on; a name directly followed by a character other than a blank
    loses that character (C10).
39. In Lua code, an apostrophe within a comment or an escaped quote makes the lexer swallow the rest of the file without token or error (C11).
40. The argument of `set_by_lua_block` is not quoted when built (C49).
41. `precontent_by_lua_block`, `proxy_ssl_certificate_by_lua_block` and `proxy_ssl_verify_by_lua_block` are in the Lua table but not in the Lua lexer, so files that
    use them are rejected (C57).
42. The generator removes `//` comments before `/* */` comments: a web address in a block comment hides its end, and the code up to the end of the next block
    comment is lost; likewise for block comments without text between them (C59).
43. The generator removes line ends, so `ngx_command_t` at the end of a line is joined with the name after it and the table is not found; a `};` within a
    string ends a table (C59).
44. The generator's template is an HTML template: names with `"&'+<>` come out escaped; a match function comment with a line feed is not a comment (C60).
45. A value of the generator's configuration file cannot be replaced by an empty one on the command line (C61).
46. `BuildFiles` trims the text, so a comment at the end of a file loses the blanks at its end when a payload is built into files and parsed again (C62).
47. Without ErrorOnUnknownDirectives a newer directive table can reject what the older one let pass: names the older one does not know are not checked. With it, only `ssl` (nginx 1.24 to 1.26 or NGINX Plus R30) and `proxy_ssl_alpn` (latest nginx to latest NGINX Plus) are lost between versions (C63).
48. A goroutine of `performIncludes` that forwards an error goes on with the next directives; nobody reads them, so it stays blocked forever (C65).
49. If such a goroutine then meets a negative include index, the program crashes although the result is an error; whether it does depends on the schedule (C65).
50. An argument that begins with the name of a Lua directive is taken for one if the name of its directive is quoted, so `"a b" content_by_lua_block c;`, which Build writes,
    is read by Parse with the Lua lexer as `"a b" content_by_lua_block "";`. The error token of the lexer becomes an empty argument, because the parser checks
    `t.Error` only for the first token of a statement (C67).
51. With the Lua lexer, `set_by_lua_block ; {a}` is read as `set_by_lua_block;` and a directive whose name is the code, because the argument is emitted as an unquoted token (C28).
52. With the Lua lexer, the semicolon in `content_by_lua_block {a}; b;` becomes the name of a directive: the lexer's check for repeated special characters does not see the one
    that the Lua lexer emits (C28).
53. A file that is included in two contexts is parsed once, so a payload without errors may be combined into a configuration that is rejected:
    `http { include s; server { include s; } }` with `server { }` in `s` (C68).
54. Comments of different files keep their line numbers when they are combined; if these are equal, `Build` writes them on one line and they become one comment (C68).
55. An include pattern that matches nothing stays an include directive in the combined configuration (C68).
56. `Parse` closes the files it parses only when it returns (`defer` in a loop), so all files of a configuration are open at once; a configuration with more files than the
    process may have open cannot be parsed (C69).
57. `BuildFiles` and `BuildInto` do not close the file if writing to it fails (C69).
58. A directive that is not known needs no `;` at the end of a block: `z{b}` is accepted (`C70_false_end`).
59. CombineConfigs is exponential: `n + 1` small files, each of which includes the next one twice, give `2^n` directives (`C72_false_combined`). There is no limit on the depth or number of includes.
60. A comment among the arguments of a directive of IgnoreDirectives is lost with ParseComments (`C73_false_comments`).
61. A directive with a block that is not allowed where it stands (or has wrong arguments, or is unknown with ErrorOnUnknownDirectives) is reported, but its block is not skipped: its statements are put into the block around it, and its `}` closes that block. At the top of a file the rest of the file is lost without an error, e.g. `user b;` in `server{listen 80;}user b;` (`C74_false`). With ErrorOnUnknownDirectives an unknown directive whose name ends in ` is not terminated by ";` makes the parser skip all up to the next `}` (`C74_false_name`).
62. `Parse` leaves the lexer's goroutine behind, blocked forever on its channel, when it stops reading a file early and more than TokenChanCap (2048) tokens follow: with StopParsingOnError after any error, and without it after a block rejected at the top of the file (`C76_false_stop`, `C76_false_block`; exact condition `C76_leak_iff`). Each such call leaks a goroutine with its buffers.
63. Include directives in blocks of parameters (`map`, `types`, `geo`, ...) are not followed, though nginx does: they are kept as parameters, also with CombineConfigs (`C77_false_map`). And a file included in two contexts is checked only in the first, so a project may be accepted that is rejected as one text (`C77_false_twice`).
64. With the Lua lexer `user content_by_lua_block b;` has two arguments; with a line feed before `b` the second one is lost, it becomes empty, without an error (`C78_false_lexers`).
65. A directive that should have a block and is ended by the `}` of the block around it (`http{server}user b;`) takes this `}` with it: what follows is read as part of the block, right directives are called wrong there, and the missing `}` is not noticed at the end of the file (`C80_false_swallowed`). If it should be ended by `;`, the `}` does end the block.
66. Errors are collected, but not all: if a pattern of an include directive matches a name that cannot be opened (for `filepath.Glob` a link to nowhere does), `Parse` returns this error and no payload, though a missing file included by its name is one error of the payload (`C81_false_pattern`, parse.go:162-168, 377-398). Likewise a cycle of includes hides all other errors (`C81_cycle`).
67. `Build` applies `options.Builders` only if the hidden map `extBuilders` is nil, and never clears it: after the first call, changes of `Builders` have no effect on `Build` and `BuildInto`, while `BuildFiles` adds the new builders to the old ones (`C84_false_builders`, `C84_false_files`, build.go:88-90, 140-144).
68. `Build` writes to the options without synchronisation. Two goroutines that share new options with builders can get wrong text even if every access is atomic: one finds the map made but not yet filled and writes directives without their builders (`C85_false_builders`); with `Indent` 0 there is a data race on `Indent` (`C85_race`, build.go:129-131, 39-45). `Parse` likewise writes `options.Glob` if it is nil, which is a data race but does not change results (`C86_race`, parse.go:125-127).
69. The payload returned by `Combined` has its own directives and blocks, but shares the arrays of `Args` and `Includes`, the `Comment` strings and the array of `Errors` with the old payload; a file that is included twice has the same `Args` arrays at both places (`C87_false_args`, util.go:137: `dir := *d` copies the struct only). A program that edits arguments in the combined payload therefore edits the old payload, and possibly other places of the same result.
70. When `Parse` returns early, the goroutine of a Lua lexer can be left behind as well: its channel is unbuffered (lua.go:56), so if `tokenize` is blocked with a token of a Lua block the Lua lexer is blocked with the next one (`C88_false_lua`; the lexer alone: C76).
71. `content_by_lua_block;` is accepted (nothing is left to read for the Lua lexer, and the `;` that ended the word is lexed after it), but if more text follows, the Lua lexer looks for `{` there: `content_by_lua_block;⏎user b;` is parsed, without an error, to `content_by_lua_block` with an empty argument and the directive `ser b` (`C75_false_lua`). The same happens when such a file is put in the place of its include directive (`C77_false_lua`: `x y;` after it becomes `y;`).
72. Errors of the Lua lexer come as tokens with `Line` 0 (lua.go:102, 119, 133), and after a Lua block the token of the error at the end of the text has the line where the directive of that block began (lex.go:334), which is before the line of tokens already sent (`C05_false_lua`).
73. `Enquote` writes an argument with a line feed (or another character that cannot be printed) and an argument with the text of its escape (`\n`) alike, so a build cannot tell them apart (`C90_false_injective`; when two arguments are written alike: `C90_alike_iff`).
74. `BuildInto` with a negative `Indent` panics after it has created the file of the config, which stays open and empty (or with the header alone); `BuildFiles` panics before it creates the file (C92). With `Tabs` a negative `Indent` is harmless up to depth 100.
75. The order of `DirectiveSources` (and of the masks of a name) decides which message a rejected statement gets, and with it how the parser recovers: only after "is not terminated by" is the block of the statement skipped. With masks of which one wants a block and one does not, the tree after an error depends on the order (C93_false). For the tables of the repository with the context check on it does not (C93_tables).
76. A file that is cut off (or cannot be read to its end, finding of C12) between two statements of the main context is accepted without an error: only the tree is shorter (C95_cut). With IgnoreDirectives a cut inside the block of an ignored directive is accepted too: the skipping of the block consumes the error of the lexer about the missing `}`, and enclosing blocks end at the end of the file without an error (C95_false: `http{types{a` with `types` ignored gives an empty `http` block).
77. The lexer does not split all texts as nginx does (C99): a `}` ends a word (`a b};`), blanks that are not ASCII characters separate arguments, a blank after `${` does not, `\$` before `{` begins a variable, carriage returns within a line are deleted instead of separating arguments; nginx drops one of two backslashes and reads `\t` in a parameter as a tab, the lexer does not. It accepts text right after a closing quote, which nginx rejects (C99_more).
78. nginx does not read all that Build writes as it is meant (C100): backslashes are written as they are, but nginx drops one of two; characters that cannot be printed are written with escapes of Go that nginx does not know (except `\t`, `\r`, `\n`, which nginx reads back and the lexer does not); `#b` becomes a comment, and the file is rejected; `if ("a b")` has other arguments.
79. Formatting a file (Parse, then Build) can change it for nginx (C101): `if ( $a )` and `if $a` become `if ($a)`, with other parameters; `map ... { if a; }` becomes `map ... { if (a); }`, so that another value is mapped; `a '#b';` becomes `a #b;`, which nginx rejects.

## Plan per property

| Id | Modelled by | Proof |
|---|---|---|
| C01 | `ChanStep` | invariant: running the reader on buffer ++ unsent tokens is constant along every step |
| C02 | `ChanStep` | progress by cases; well-founded measure; leak criterion from the length invariant |
| C03 | `lex` | item grammar (`Spec/Items`): `lex (unlex items) = tokens of items`; every CR-free text is `unlex` of items |
| C04 | `lex` | induction: a CR only changes nothing in the loop |
| C05 | `lex` | from C03: lines of items; monotonicity by induction on the loop; exact lines (`Spec/Lines`) by induction over the items; with external lexers by induction over the calls (`Props/LinesExt`) |
| C06 | `lex` | loop invariant linking `depth` to the emitted braces |
| C07 | `lex` | induction on the loop |
| C08 | `lex` | loop invariant on the partial token |
| C09 | `Utf8` | decode/encode inverse by arithmetic; chunking by prefix lemma for `scanRunes` |
| C10 | `lexWith` | simulation while no registered name is met; equation at a match; `foldl` lemma for registration |
| C11 | `Lua` | induction over balanced Lua code |
| C12 | `Parse` | false: witness; partial: the payload equals that of the truncated file |
| C13 | `Parse` | false: witness; partial: no panic if every accepted `if` has a non-empty expression |
| C14 | `Parse` | included names form a duplicate-free list; fuel bound |
| C15 | `Parse` | invariant over parser state and produced directives |
| C16 | `isAcyclic` | Kahn invariant: in-degree = remaining edges; count = all iff no cycle |
| C17, C18 | `Parse` | invariant over `handleError`; C18: a run with a callback and one without it, step by step |
| C19 | `Parse` | simulation stop/non-stop up to the first error |
| C20 | `Parse` | cases of `parseFiles` |
| C21 | `Parse` | simulation with/without ParseComments, removing comments |
| C22, C23, C26, C27, C33 | `Parse` | invariant over the produced tree; C26 also with the true contexts of included files: the check does not tell contexts of four or more blocks apart |
| C24, C25 | `analyze` | direct, against `Spec/Masks` |
| C28 | `Parse` | flattening of the tree equals tokens; for external lexers from conditions on the tokens (`Spec/SourceToks`) |
| C29 | `Parse` | false: witness; partial: the depth is kept, and so are the outermost 0, 1 or one more than a power of two blocks |
| C30 | `Parse` | induction: `doInclude` is the identity |
| C31 | `Parse` | false: witnesses; partial: plain lexer and no ignored/skipped blocks |
| C32 | `Parse` | sorting is permutation invariant |
| C34 | tables | `decide` over the whole finite table |
| C35-C39 | `Combine` | specification by an inductive relation; determinism, existence under acyclicity |
| C40 | `Enquote`, `lex` | exact criterion |
| C41-C44 | `Build`, `lex`, `Parse` | token list of the built text; then parser |
| C45 | `margin` | cases |
| C46-C48 | `Build*` | induction over configs |
| C49 | Lua | from C11 |
| C50 | `Equal` | mutual induction |
| C51 | `Json` | false: witness; partial: no empty blocks / includes |
| C52 | `ParseError` | cases |
| C53, C54 | `Gen` | induction |
| C55 | `Gen` | cases of the mask names |
| C56 | `analyze` | join with `>` is injective on names without `>` |
| C57 | Lua, tables | kernel evaluation over the whole tables; all statements by the criterion of C24 |
| C58 | `Gen`, tables, configurations | kernel evaluation over whole tables with character lists; C definitions given for each table |
| C59 | `GenSrc` | matching lemmas for literals, greedy and lazy repetition; no match can start in a gap |
| C60 | `GenOut` | a state machine for Go tokens reads the output piece by piece; sorting lemmas; induction over the walk |
| C61 | `GenOut` | induction over the flags |
| C62 | `Parse`, `BuildFiles` | what a tree does to the parser state (`Replay`); the run over the tokens of the built text does the same; induction over the queue of files |
| C63 | `analyze`, `Parse`, tables | an error-free run takes the same steps under options that accept at least the same; covering of tables decided by the kernel |
| C64, C65 | `combineConfigs`, `performIncludes` as goroutines | what a chain of goroutines will still send, with a count of steps; every step keeps it and takes one from the count; without circles a measure defined by well-founded recursion over the includes bounds all schedules; witnesses for the leak and the crash; which payloads leave a goroutine behind: what is still sent (Spec/Sends), where each error says whether the goroutine it came from is left with something, is kept by every step |
| C66 | `tokenize`, `SubScanner`, `Lua.Lex` as goroutines with a shared scanner | the sequential semantics gives what a state will still send; every step is invisible or a step of the two-party model of C01/C02, so their theorems carry over |
| C67 | `Lua.Build`, `Lua.Lex`, `buildBlock`, `tokenize`, `parse` | text of a tree as pieces (code, comments, line feeds, external blocks); lexer over pieces; then the parser over the tokens as for C41, and over the files as for C62 |
| C68 | `Combined`, `Build`, `Parse` | contexts of the configs from the run of the parser; places of the directives of the combined tree; then C41 |
| C69 | `Parse`, `parse`, `BuildFiles`, `BuildInto` with handles | the parser once more with events and frames of deferred calls, equal results by induction; events are nested like brackets |
| C70 | `Parse`, `parse`, `analyze`, `analyzeMapBody` | a grammar over tokens with contexts (`Conf`); a run without errors is a derivation and a derivation is a run; configurations start with a word and end every statement |
| C71 | `Parse`, `parse`, `isAcyclic`, `enterBlockCtx` | `Project`: files in order of their first include, with contexts, links and trees; the run keeps the list of included files with their contexts (`Links`), and the contexts are computed from the payload (`arrange`) |
| C72 | `Parse`, `parse`, `Combined`, `tokenize` | `size`, `toksSize`: a run uses up at least as much of the tokens as it gives (`RunOk.size`); with CombineConfigs a chain of files that include the next one twice (`C72_false_combined`) |
| C73 | `Parse`, `parse`, `skipBlock`/`consume` | `withoutList` on trees; the grammar with more ignored names derives the smaller tree (`C73_grammar`), then C70 and C71 |
| C74 | `parse`, `handleError`, `analyze` | grammar with wrong statements (`Spec/Recovery`), induction on it: the run notes one error per wrong statement and goes on with the next statement |
| C75 | `tokenize`, `parse` | the lexer as a step function: its run on `a ++ b` is the run on `a` and then on `b`; a simulation between runs on different lines; appending and shifting derivations of the grammar; with external lexers the same for steps with a call (`callStep`), where `extCalls` lists the calls made while a text is read |
| C76 | `Parse`, `parse`, `LexWithOptions` | `Parse` as a machine that receives one token at a time (`Feeds`), in parallel with a lexer per file (`SysStep`); invariant: what the machine has received and what is unread are the tokens of the file; `unreadFiles` is what the sequential parser leaves |
| C77 | `Parse`, `parse`, `combineConfigs`, `tokenize` | a grammar `Full` in which an include directive is the tokens of its files; the expansion of a project is in it (mutual induction on the expansion); replacing keeps the tree; the lexer is between tokens where a statement begins, and runs alike from there at any depth and line, also with external lexers whose calls end before (`RunE`) |
| C78 | `Parse`, `parse`, `combineConfigs`, `tokenize` | relations `SameTok`, `PSRel`, `StepLine`, ... through every round of the parser, every file and the combination; `specToks` does not depend on blanks |
| C79 | `parse`, `Parse`, `analyze` | every error that a run adds is the `RoundError` of a round visited (`RunOk.causes`, ...); the round stands in the tokens of the file; `Spec/Causes` says what a mistake is; order of lines by induction on the run, with the line an error token tells (`Props/LinesExt` for external lexers) |
| C80 | `parse`, `Parse`, `handleError`, `analyze` | relations over tokens (`Spec/Outcome`: `Statement`, `Keeps`, `Breaks`), total by induction on the number of tokens; each round is as `Statement` says (`Statement.step`), so each run is as `Keeps` or `Breaks` says; `analyze_unended`: which rejected statements are said to lack a `;`; skipping by counting braces (`PastAt_iff`) |
| C81 | `Parse`, `parse`, include handling | `Spec/Works`: `KeepsIn`, `BreaksIn` are `Keeps`, `Breaks` with include directives that are followed (`lookIn`), `Work` is the worklist; `Moved` relates states by lines of errors, files added, edges; each run moves as described (`KeepsIn.run`, `BreaksIn.run`), so does the loop (`Work.run`); total for finitely many files (`Work_total`); StopParsingOnError by C19's comparison of the two runs, CombineConfigs by C33 and C35 |
| C82 | `Parse`, `parse`, include handling | `Spec/Frame`: `Mentions`, `CanReach`, `Asked` over the tokens; `doInclude`, `step`, `parse`, `parseFiles` are equal on file systems that agree there and the worklist stays within `CanReach` (`SameOn.*` in Proofs/Frame) |
| C83 | `Build`, `buildBlock` | `Spec/Hole`: `Place.fill`, `Ordinary`; `blockText_append` and `Spec.Place.blockText` split the lines of Spec/Layout at the place; C45 carries it to the code |
| C84 | `Build`, `BuildInto`, `BuildFiles` and what they write to the options (Model/BuildState) | invariant `Used`: the options after calls; `Used.setup`: `Build` works with the same options after any history; `Spec/Session`: each call with fresh options |
| C85 | `Build` in several goroutines (Model/BuildRace) | invariants over all reachable states; `C85_alone` for the sequential meaning |
| C86 | `Parse` with shared options (Model/ParseShare) | induction on the events; an invariant over all reachable states |
| C87 | memory before and after `Combined` (Model/Heap) | simulation of the tree model by the memory model; heaps only grow; ownership of the new objects |
| C88 | `Parse` with the goroutines of C66 for each file (Model/ParseExt) | every step of the goroutines of a file is invisible and uses up a bound, or one or two steps of the lexer of C76, so the program simulates that of C76; termination by the pair (steps left in C76, invisible steps ahead) |
| C89 | Spec/Moved: files at new paths, patterns standing for the new paths, results with the new paths | every round of the parser commutes with an injective renaming of the paths in its state (lists, maps and the include graph); Kahn's algorithm by C16 with both maps in insertion order |
| C90 | `Enquote`; Spec/Escapes: escapes of Go, with digits by their value | from the text of C40: what is shown is a function of the argument, and putting it between quotes is injective |
| C91 | `parser.parse`, `Parse`, lexer; Spec/Words: words of a tree and of a text | from Source (C28) by induction: every constructor adds the same words on both sides; trees that differ in lines have the same words; for trees without `if` and texts as in C28 |
| C92 | `Build`, `BuildInto`, `BuildFiles`, `margin`; Model/BuildPanic: the state at a panic; Spec/Panics: lines that are too deep | the induction of C45 once more, with a flag for lines that cannot be indented; the loops by induction over the configs |
| C93 | `analyze`, `Parse`; Spec/SourceOrder: sources with the same masks, masks that agree in the ending, results up to messages | `analyze` fails or succeeds alike (C25) and its error ends in "not terminated" alike; then a simulation of two parsers that differ in messages; the tables by `decide +kernel` |
| C94 | `Parse`, `parser.parse` with and without `SingleFile`; Spec/Alone: trees without links, errors of include directives | a simulation of two runs over one file, one of which follows includes; for all files, the worklist holds only files with the empty context |
| C95 | `tokenize` on a text and on its beginning, `Parse`; Spec/Cut | the pending token of the lexer only grows until it is sent; by induction on the grammar, tokens that were cut are kept or broken with no other error (Spec/Outcome); trees by the splitting of the grammar and C70 |
| C96 | `tokenize` on two texts with a common beginning and end, `Parse`; Spec/Edit | the state of the lexer between statements is the same but for lines and the memory of the last special character, which is known at a statement; braces are counted to see that statements do not cross the end of a block; induction on the grammar; C70 |
| C97 | `Parse` on two file systems that differ in one file; Spec/Project, Spec/Edit | a project stays one if a file is exchanged for one with the same references: the names, contexts and references of the files are the same, so the order and the links are; C71; C96's `edit_toks` in the context of the file; references do not depend on lines; with mistakes: the files are a worklist of C81, where those of the project keep all |
| C98 | `Parse` with two lists of lexers, `Build` with two lists of builders | the parser uses the lexers for the tokens only; a name tried by the lexer is a beginning of the value of a word or string, which is in the text unless the name has quotes; C10, C03; induction over the tree for the builders |
| C99 | Spec/Nginx (the reader of nginx), `lex` | the items of the text (C03): induction over the items and, within words, strings and comments, over the characters; a word nginx has begun becomes a parameter that begins with what was read, so the conditions on parameters exclude the places where the two readers part; carriage returns are removed first |
| C100 | Spec/Nginx, Spec/NginxTree, `buildText` | a relation `NgxReads` (a text leads from one state of the reader to another and yields these tokens) that is composed along the text; Enquote's text by C40_text, character by character; induction over the tree; for files C45, C46 and C47 |
| C101 | Spec/Nginx, Spec/NginxTree, Spec/Source, `Parse`, `buildText` | C99, C28 and C100 composed; an order on the tokens of nginx (`NgxOrder`) gives the conditions of C28; inductions over `Source` |

## Axioms

Per theorem of MANIFEST.json, as printed by `#print axioms` (made by scripts/axioms.py).

* Classical.choice, Quot.sound, propext: `C03_every_text_is_items`, `C03_tokens_of_items`, `C04_carriage_returns`, `C04_same_text`, `C05_external`, `C05_lines`, `C05_lines_iff`, `C05_lines_ordered`, `C05_lines_partial`, `C05_lines_plain`, `C05_lua`, `C06_no_error_iff`, `C06_tokens_balanced`, `C07_errors`, `C08_not_empty`, `C08_plain_word`, `C08_token_shapes`, `C09_chunking`, `C09_decodes`, `C09_utf8`, `C100_build`, `C100_files`, `C100_string`, `C100_strings`, `C101_false_bare`, `C101_false_if`, `C101_false_map`, `C101_false_sharp`, `C101_files`, `C101_format`, `C10_chunks`, `C10_chunks_returns`, `C10_false_position`, `C10_false_prefix`, `C10_false_quoted`, `C10_last_wins`, `C10_unregistered`, `C11_block`, `C11_lex`, `C11_only`, `C11_set`, `C11_text`, `C11_text_returns`, `C11_unclosed`, `C12_false`, `C12_partial`, `C13_false`, `C13_partial`, `C14_fuel`, `C14_once`, `C14_terminates`, `C15_first`, `C15_includes`, `C16_cycle_iff`, `C16_map_order`, `C16_no_false_alarm`, `C16_payload`, `C17_combined_tags_false`, `C17_errors`, `C17_errors_combined`, `C17_status`, `C18_callback`, `C18_calls`, `C18_nothing_else`, `C18_two`, `C18_unset`, `C19_err`, `C19_first`, `C19_iff`, `C19_ok`, `C20_error`, `C20_recorded`, `C21_none`, `C21_same`, `C22_false`, `C22_partial`, `C23_known`, `C23_rejected_recorded`, `C23_rejected_recorded`, `C23_unknown_recorded`, `C24_accepts_exactly`, `C24_accepts_iff`, `C24_error_fields`, `C24_error_names_directive`, `C25_parse`, `C25_skip_all`, `C25_skip_args_accepts_more`, `C25_skip_context_accepts_more`, `C25_source_order`, `C25_source_permutation`, `C26_admitted`, `C26_checked`, `C26_combined`, `C26_standing`, `C26_standing_ok`, `C27_decision`, `C27_marked`, `C27_params`, `C28_external`, `C28_false_brace`, `C28_false_comment`, `C28_false_lua`, `C28_false_set`, `C28_partial`, `C29_false`, `C29_false_depth`, `C29_partial`, `C29_payload_partial`, `C29_shallow_partial`, `C30_opens`, `C30_payload`, `C31_false_brace`, `C31_false_brace`, `C31_false_external`, `C31_false_external`, `C31_false_ignored`, `C31_false_ignored`, `C31_partial`, `C32_glob_order`, `C32_includes`, `C32_sorted`, `C33_combined`, `C33_plain`, `C34_contexts_partial`, `C34_default_union`, `C34_false`, `C34_masks`, `C34_union`, `C34_union_unknown`, `C37_error_iff`, `C38_idempotent`, `C39_combines`, `C40_iff`, `C40_partial`, `C40_quoted_iff`, `C40_quoted_partial`, `C40_text`, `C40_unquoted_iff`, `C40_unquoted_partial`, `C41_false_comments`, `C41_false_if`, `C41_partial`, `C42_false`, `C42_false_text`, `C42_partial`, `C42_text_partial`, `C43_header_partial`, `C43_margins_partial`, `C44_code_partial`, `C45_body`, `C45_body`, `C45_lines`, `C45_no_panic`, `C46_build`, `C46_into`, `C46_strings`, `C47`, `C47_cwd`, `C48_last`, `C48_others`, `C48_rendered`, `C49_block`, `C49_file`, `C49_set`, `C50_equal_iff`, `C50_fields`, `C50_refl`, `C50_symm`, `C50_trans`, `C51_decoded`, `C51_equal`, `C51_false`, `C51_partial`, `C51_payload`, `C52_premature`, `C53_error_iff`, `C53_iteration_order`, `C53_table`, `C54_errors`, `C54_grammar`, `C55_error_iff`, `C55_table`, `C55_undeclared`, `C56_context_key`, `C57_accepted`, `C57_false`, `C57_masks`, `C57_names_partial`, `C58_generated`, `C59_clean`, `C59_definitions`, `C59_masks`, `C60_file`, `C60_order`, `C60_sorted`, `C60_tokens`, `C61_config`, `C61_runs`, `C62_false_blank`, `C62_files_partial`, `C62_if_masks`, `C62_partial`, `C62_tables_partial`, `C63_default`, `C63_false`, `C63_false_lax`, `C63_oss`, `C63_plus`, `C63_same_payload`, `C63_same_payload_without`, `C64_bounded`, `C64_cycle`, `C64_ends`, `C64_error`, `C64_no_deadlock`, `C64_ok`, `C64_panic`, `C64_total`, `C65_exact`, `C65_false_crash`, `C65_leak_iff`, `C65_parse`, `C65_sends_exists`, `C65_sends_unique`, `C66_complete_run`, `C66_lua`, `C67_disk_partial`, `C67_external`, `C67_external_files`, `C67_false_arg`, `C67_files_partial`, `C67_tree_partial`, `C68_external`, `C68_false_comments`, `C68_false_twice`, `C68_lua_partial`, `C68_partial`, `C69_closed`, `C69_files`, `C69_peak`, `C69_result`, `C70_complete`, `C70_exact`, `C70_exact_lexed`, `C70_false_end`, `C70_false_start`, `C70_rejects`, `C70_sound`, `C70_unique`, `C71_accepted`, `C71_combined`, `C71_combined_sound`, `C71_complete`, `C71_exact`, `C71_exact_lexed`, `C71_false_deep`, `C71_payload`, `C71_sound`, `C72_false_combined`, `C72_lex`, `C72_linear`, `C72_tokens`, `C73_false_comments`, `C73_false_converse`, `C73_ignores`, `C73_one`, `C74_false`, `C74_false_name`, `C74_partial`, `C75_concat`, `C75_concat_external`, `C75_concat_lua`, `C75_errors`, `C75_errors_external`, `C75_external`, `C75_false_line`, `C75_false_lua`, `C75_lua`, `C75_tokens`, `C76_blocked`, `C76_bounded`, `C76_clean`, `C76_end`, `C76_ends`, `C76_false_block`, `C76_false_stop`, `C76_leak_iff`, `C76_progress`, `C76_result`, `C76_same`, `C77_external`, `C77_false_lua`, `C77_false_map`, `C77_false_twice`, `C77_inline`, `C77_lua`, `C78_false_lexers`, `C78_layout`, `C78_lines`, `C78_tokens`, `C79_cause`, `C79_line`, `C79_line_external`, `C79_ordered`, `C79_ordered_external`, `C79_stop`, `C80_broken`, `C80_crash`, `C80_crash_iff`, `C80_false_swallowed`, `C80_kept`, `C80_ok`, `C80_payload`, `C80_recover`, `C80_stop`, `C80_stop_last`, `C80_total`, `C81_combined`, `C81_combined_none`, `C81_crash`, `C81_cycle`, `C81_done`, `C81_false_pattern`, `C81_noFile`, `C81_ok_iff`, `C81_stop`, `C81_total`, `C82`, `C82_file`, `C82_single`, `C83`, `C83_alone`, `C83_concat`, `C84`, `C84_files`, `C85`, `C85_alone`, `C85_indent`, `C85_ready`, `C86`, `C86_goroutines`, `C86_race`, `C87`, `C87_error`, `C88_bounded`, `C88_clean`, `C88_end`, `C88_ends`, `C88_false_lua`, `C88_leak_iff`, `C88_no_endless`, `C88_progress`, `C88_result`, `C88_same`, `C88_stuck`, `C88_terminates`, `C89_directory`, `C89_false_absolute`, `C89_moved`, `C90_alike_iff`, `C90_false_injective`, `C90_injective`, `C90_text`, `C91_false_if`, `C91_same_words`, `C91_same_words_external`, `C91_words`, `C92_body`, `C92_files_panic`, `C92_files_panic`, `C92_into_panic`, `C92_into_panic`, `C92_panic`, `C93_default`, `C93_false`, `C93_no_errors`, `C93_order`, `C93_permuted`, `C93_repository`, `C93_tables`, `C94_every`, `C94_false`, `C94_first`, `C94_no_errors`, `C95_cut`, `C95_false`, `C95_stop`, `C95_tokens`, `C95_where`, `C96_edit`, `C96_line`, `C96_without`, `C96_wrong`, `C97_edit`, `C97_mistakes`, `C97_replace`, `C97_without`, `C97_wrong`, `C98_build`, `C98_lua`, `C98_parse`, `C98_same`, `C98_tokens`, `C98_unused`, `C99_same`, `C99_values`, `mentions_iff`

* Quot.sound, propext: `C01_drain`, `C01_drain_prefix`, `C01_receives_in_order`, `C01_schedule_independent`, `C02_drain_completes`, `C02_leak_iff`, `C02_leaks`, `C02_terminates`, `C05_false`, `C35_combined_iff`, `C35_no_include_left`, `C36_errors_status`, `C37_error_names`, `C37_terminates`, `C37_terminates`, `C44_line`, `C45_margin`, `C49_false_arg`, `C60_generate`, `C60_only_c`, `C60_read`, `C60_unknown`, `C64_no_crash`, `C64_no_crash`, `C64_returns`, `C66_drain`, `C66_drain_completes`, `C66_leak_iff`, `C66_order`, `C66_terminates`, `C69_into`, `C69_write`, `C73_project`, `C87_false_args`, `C92_files`

* none: `C02_no_deadlock`, `C05_false_lua`, `C10_false_glued`, `C10_none`, `C11_false_comment`, `C11_false_escape`, `C99_false_backslash`, `C99_false_brace`, `C99_false_dollar`, `C99_false_return`, `C99_false_space`, `C99_false_variable`, `C99_more`

* propext: `C100_false_backslash`, `C100_false_escape`, `C100_false_if`, `C100_false_sharp`, `C27_error_fields`, `C35_no_configs`, `C40_false`, `C43_false`, `C45_negative`, `C49_no_args`, `C52_text`, `C52_text_cases`, `C58_all`, `C59_false_address`, `C59_false_adjacent`, `C59_false_close`, `C59_false_line`, `C60_false`, `C60_false_comment`, `C61_bad_override`, `C65_false_leak`, `C66_exclusive`, `C66_no_deadlock`, `C69_false_into`, `C69_false_write`, `C73_grammar`, `C74_conf`, `C83_false_concat`, `C83_false_line`, `C84_false_builders`, `C84_false_files`, `C85_false_builders`, `C85_race`, `C87_assign`, `C87_empty`, `C87_errors`, `C92_build`, `C92_into`
