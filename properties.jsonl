{"id": "C01", "title": "Token delivery is independent of scheduling and channel capacity", "statement": "Whatever the capacity set with SetTokenChanCap (including 0) and however the lexer goroutine and the reader of the channel returned by Lex/LexWithOptions are interleaved, a reader that drains the channel receives exactly the same tokens, in the same order, each once, and then sees the channel closed; the result of any deterministic reader (such as the parser) is the same under every schedule.", "quantifier": "all token sequences, all channel capacities, all interleavings, all deterministic readers", "why_tests_cant": "the number of interleavings is unbounded and the scheduler cannot be enumerated by a test", "anchors": ["lex.go:LexWithOptions", "lex.go:tokenize", "lex.go:SetTokenChanCap", "parse.go:parse"]}
{"id": "C02", "title": "The lexer/reader pair never deadlocks and a draining reader always finishes", "statement": "While the reader is still reading, some step of the lexer goroutine or the reader is always possible, and every schedule reaches the end in boundedly many steps. If the reader stops early, the lexer goroutine is blocked forever exactly when more tokens remain than fit in the channel.", "quantifier": "all token sequences, capacities, readers and reachable states", "why_tests_cant": "absence of deadlock is a statement about every reachable state", "anchors": ["lex.go:tokenize", "lex.go:LexWithOptions", "parse.go:Parse"]}
{"id": "C03", "title": "The token stream is exactly the source, item by item", "statement": "Lexing any text made of words, quoted strings, comments, whitespace and the special characters { } ; gives exactly the corresponding tokens, in order, with nothing invented, dropped, merged or split; and every text (CRs aside) is such a sequence of items, so this determines the lexer's output on every input.", "quantifier": "all input texts", "why_tests_cant": "infinitely many inputs", "anchors": ["lex.go:tokenize", "util.go:isSpace"]}
{"id": "C04", "title": "Carriage returns are irrelevant", "statement": "Removing every carriage return from a text (for instance turning CRLF line ends into LF) does not change the tokens, their values or their line numbers.", "quantifier": "all input texts, without external lexers", "why_tests_cant": "infinitely many texts and CR positions (inside quotes, escapes, comments)", "anchors": ["lex.go:tokenize"]}
{"id": "C05", "title": "Token line numbers", "statement": "The Line of every token is one plus the number of line feeds that precede the position where the token starts; lines never decrease along the stream and never exceed one plus the number of line feeds in the text.", "quantifier": "all input texts, all tokens", "why_tests_cant": "must hold at every token of every text", "anchors": ["lex.go:tokenize", "lex.go:NgxToken"]}
{"id": "C06", "title": "Braces are balanced when the lexer reports no error, and exactly then", "statement": "If no token carries an error then unquoted { and } tokens are balanced and never close more than was opened; if the braces of the text are unbalanced, or ; or { directly follows another special token, the stream ends in an error token.", "quantifier": "all input texts", "why_tests_cant": "unbounded nesting and length", "anchors": ["lex.go:tokenize"]}
{"id": "C07", "title": "A lexing error is the last token", "statement": "Without external lexers at most one token carries an error, it is the last token of the stream, its value is empty, and it is reported with the current line.", "quantifier": "all input texts", "why_tests_cant": "must hold for every text", "anchors": ["lex.go:tokenize"]}
{"id": "C08", "title": "What tokens can look like", "statement": "An unquoted token is never empty; an unquoted token that contains { } or ; as an unescaped character outside ${...} is exactly that one character; a comment token never contains a line feed.", "quantifier": "all input texts, all tokens", "why_tests_cant": "must hold for every text", "anchors": ["lex.go:tokenize"]}
{"id": "C09", "title": "Rune scanning: valid UTF-8 is preserved, invalid bytes become U+FFFD, chunking does not matter", "statement": "The characters the lexer sees are a function of the bytes only: they do not depend on how the io.Reader splits the bytes into reads; encoding a text in UTF-8 and scanning it gives the text back; bytes that are not valid UTF-8 never make lexing fail, each becomes U+FFFD.", "quantifier": "all byte sequences and all ways to split them into reads", "why_tests_cant": "unbounded inputs and splits", "anchors": ["lex.go:tokenize (bufio.ScanRunes)"]}
{"id": "C10", "title": "External lexers are used only for registered names in directive position, and resume where they stop", "statement": "With no external lexer registered, or if no directive-position text equals a registered name, lexing with options equals plain lexing; when a registered name is met the name token is followed by exactly the tokens of the external lexer and lexing resumes at the first character it did not consume with the line count advanced by the line feeds it consumed; for one name the last registration wins.", "quantifier": "all texts, all sets of registrations", "why_tests_cant": "unbounded texts and external lexers", "anchors": ["lex.go:LexWithOptions", "lex.go:registerLexer.applyLexOptions", "lex.go:SubScanner", "lex.go:tokenize"]}
{"id": "C11", "title": "A Lua block becomes one argument", "statement": "For any Lua code whose braces outside quotes are balanced, lexing `name {code}` with the Lua lexer gives the directive token, one quoted token whose value is exactly the code, and a ; token, whatever the code contains.", "quantifier": "all balanced Lua code, all Lua directive names", "why_tests_cant": "unbounded code", "anchors": ["lua.go:Lua.Lex"]}
{"id": "C12", "title": "Read errors of the input are reported", "statement": "If the io.Reader fails before end of file, Parse reports an error.", "quantifier": "all readers", "why_tests_cant": "depends on where the failure happens", "anchors": ["lex.go:tokenize (scanner.Err never consulted)"]}
{"id": "C13", "title": "Parse never panics", "statement": "For every file system content and every option set Parse returns a payload or an error and never panics.", "quantifier": "all file contents, all options", "why_tests_cant": "any input could trigger a slice error", "anchors": ["parse.go:Parse", "parse.go:parse", "util.go:prepareIfArgs"]}
{"id": "C14", "title": "Parse terminates and opens each included file for parsing at most once", "statement": "If only finitely many file names can be opened, Parse terminates; no file name occurs twice in Payload.Config.", "quantifier": "all file systems with finitely many files, arbitrary include graphs incl. cycles", "why_tests_cant": "unbounded include graphs", "anchors": ["parse.go:Parse", "parse.go:parse"]}
{"id": "C15", "title": "Include indices are right", "statement": "In every payload returned by Parse without CombineConfigs, every index in a directive's Includes is a valid index into Payload.Config and the config at that index is the file that the include pattern resolved to; Config[0] is the file passed to Parse.", "quantifier": "all file systems, options, include graphs", "why_tests_cant": "invariant over the whole worklist", "anchors": ["parse.go:parse", "parse.go:Parse"]}
{"id": "C16", "title": "Include cycles are detected exactly", "statement": "Parse reports `configs contain include cycle` if and only if some file includes itself through one or more include directives, regardless of the iteration order of Go maps.", "quantifier": "all include graphs, all map iteration orders", "why_tests_cant": "graphs are unbounded and map order is random", "anchors": ["parse.go:isAcyclic"]}
{"id": "C17", "title": "Status and errors are consistent", "statement": "Payload.Status is \"failed\" iff Payload.Errors is non-empty, and \"ok\" otherwise; a Config's Status is \"failed\" iff its Errors is non-empty; Payload.Errors is exactly the concatenation of the configs' errors in order, tagged with the config's file.", "quantifier": "all inputs and options", "why_tests_cant": "invariant over every run", "anchors": ["parse.go:Parse (handleError)"]}
{"id": "C18", "title": "The error callback sees every error once, in order", "statement": "If ErrorCallback is set it is called exactly once per recorded error, in the order of Payload.Errors, and its result is stored in the Callback field of that error; if it is unset every Callback is nil. The callback influences nothing else: with another callback or none Parse gives the same result but for the Callback fields.", "quantifier": "all inputs and callbacks", "why_tests_cant": "invariant over every run", "anchors": ["parse.go:Parse (handleError)"]}
{"id": "C19", "title": "StopParsingOnError is the same parse up to the first error", "statement": "Parse with StopParsingOnError returns a payload iff Parse without it returns a payload with no errors, and then the two payloads are equal; a payload returned with StopParsingOnError always has status ok and no errors. If Parse without it returns a payload with errors, Parse with it returns the first of these errors; if Parse without it fails, Parse with it fails.", "quantifier": "all inputs and options", "why_tests_cant": "relates two runs on every input", "anchors": ["parse.go:Parse", "parse.go:parse"]}
{"id": "C20", "title": "Configuration mistakes never abort a non-stop parse", "statement": "Without StopParsingOnError, Parse returns an error instead of a payload only if a file of the worklist cannot be opened, the includes are cyclic, or (never, see C39) combining fails; every lexical, context or argument error is recorded in the payload.", "quantifier": "all inputs and options", "why_tests_cant": "must hold for every malformed input", "anchors": ["parse.go:Parse", "parse.go:parse"]}
{"id": "C21", "title": "Comments do not influence the parse", "statement": "The payload obtained with ParseComments, after removing the comment directives, equals the payload obtained without ParseComments; without ParseComments no comment directive appears.", "quantifier": "all inputs and options", "why_tests_cant": "relates two runs on every input", "anchors": ["parse.go:parse"]}
{"id": "C22", "title": "Ignored directives do not appear", "statement": "No directive named in IgnoreDirectives appears in the payload, at any depth, except as parameter of a map-like block.", "quantifier": "all inputs and options", "why_tests_cant": "must hold at every node of every result", "anchors": ["parse.go:parse", "util.go:contains"]}
{"id": "C23", "title": "Unknown directives are rejected on request", "statement": "With ErrorOnUnknownDirectives every directive in the payload that is neither a comment nor a parameter of a map-like block is known to one of the DirectiveSources (or to the default directives if there are none), and each rejected one is recorded as an error.", "quantifier": "all inputs, all directive sources", "why_tests_cant": "must hold at every node of every result", "anchors": ["parse.go:parse", "analyze.go:analyze"]}
{"id": "C24", "title": "The statement check decides exactly the mask language", "statement": "A statement whose directive and context are known is accepted iff one of the directive's bitmasks permits the context (unless SkipDirectiveContextCheck) and (unless SkipDirectiveArgsCheck) its block bit matches the terminator, its expression bit is respected, and its argument bits admit the number (or flag value) of arguments; otherwise an error is returned naming the directive, line, file and block.", "quantifier": "all directives, masks, contexts, argument lists, terminators and options", "why_tests_cant": "unbounded argument lists and mask sets", "anchors": ["analyze.go:analyze", "util.go:validExpr", "util.go:validFlag"]}
{"id": "C25", "title": "The skip options only accept more, and source order does not matter", "statement": "A statement accepted without SkipDirectiveContextCheck / SkipDirectiveArgsCheck is accepted with it; with both set and without ErrorOnUnknownDirectives every statement is accepted; reordering DirectiveSources or the masks within them never changes whether a statement is accepted.", "quantifier": "all statements, contexts, sources", "why_tests_cant": "relates two runs on every input", "anchors": ["analyze.go:analyze"]}
{"id": "C26", "title": "Everything in the payload passed its check in its context", "statement": "Every directive in an error-free or partially failed payload that is not a comment, not a map parameter, was accepted by the statement check for the block context in which it appears (block path from the root of its file, prefixed by the context of the include).", "quantifier": "all inputs and options, every node of the result", "why_tests_cant": "must hold at every node of every result", "anchors": ["parse.go:parse", "analyze.go:enterBlockCtx"]}
{"id": "C27", "title": "Map-like blocks accept exactly their parameters", "statement": "Inside map-like blocks every statement in the payload ends in ; , has no block, is marked as map parameter and has a number of arguments admitted by the block (or by the special parameter); violations are recorded as errors; the decision is exactly the mask decision.", "quantifier": "all parameters, argument lists, blocks", "why_tests_cant": "unbounded argument lists and inputs", "anchors": ["analyze_map.go:analyzeMapBody", "analyze_map.go:hasValidArguments", "parse.go:parse"]}
{"id": "C28", "title": "The tree is the source: nesting, order and arguments are preserved", "statement": "If a file parses without errors, no directive is ignored and every statement of the file is closed by ; or a block, then printing the resulting tree back as tokens gives exactly the token stream of the file (comments included if parsed, parentheses of if normalised): nothing is lost, invented, reordered or re-nested.", "quantifier": "all token streams", "why_tests_cant": "infinitely many configurations", "anchors": ["parse.go:parse"]}
{"id": "C29", "title": "An included file is parsed in the block context of its include directive", "statement": "The block context used to check the directives of an included file is the one of the include directive that first included it.", "quantifier": "all inputs, all nestings", "why_tests_cant": "depends on slice aliasing that appears only at particular nesting depths", "anchors": ["parse.go:parse (fileCtx)", "analyze.go:enterBlockCtx (append)"]}
{"id": "C30", "title": "SingleFile parses exactly one file", "statement": "With SingleFile the payload has exactly one config, no directive has Includes, and no file other than the given one is opened.", "quantifier": "all inputs", "why_tests_cant": "must hold for every input", "anchors": ["parse.go:parse", "parse.go:Parse"]}
{"id": "C31", "title": "Lexer errors are never swallowed", "statement": "If the token stream of a parsed file contains an error token, or ends in the middle of a statement, the payload has status failed (or Parse returns an error).", "quantifier": "all inputs and options", "why_tests_cant": "depends on where in the grammar the error token falls", "anchors": ["parse.go:parse"]}
{"id": "C32", "title": "Include globbing order does not matter", "statement": "The payload does not depend on the order in which Glob returns the matching files: they are included in sorted order.", "quantifier": "all glob results and permutations of them", "why_tests_cant": "relates runs on every permutation", "anchors": ["parse.go:parse"]}
{"id": "C33", "title": "File attribution", "statement": "With CombineConfigs every directive of the payload carries in File the name of the file it was parsed from; without it File is empty.", "quantifier": "all inputs", "why_tests_cant": "must hold at every node", "anchors": ["parse.go:parse"]}
{"id": "C34", "title": "The directive tables are well-formed", "statement": "Every entry of every built-in directive table has at least one bitmask, each bitmask names at least one context and at least one argument style; the default table is the union of NGINX Plus latest, njs and OTel with later ones taking precedence.", "quantifier": "all entries of all built-in tables", "why_tests_cant": "the tables have thousands of entries and the union is over all names", "anchors": ["analyze.go:defaultDirectives", "analyze.go:unionBitmaskMaps", "analyze_*_directives*.go"]}
{"id": "C35", "title": "Combined is the depth-first expansion of includes", "statement": "Payload.Combined returns a payload with exactly one config (or the payload itself when it has none) whose directives are the directives of the first config with every include directive that has Includes replaced, in place and recursively, by the directives of the included configs in order; everything else is unchanged and keeps its order; no such include directive remains.", "quantifier": "all payloads", "why_tests_cant": "unbounded include nesting", "anchors": ["util.go:combineConfigs", "util.go:performIncludes", "types.go:Payload.Combined"]}
{"id": "C36", "title": "Combined keeps errors and status", "statement": "The combined config's errors are the concatenation of all configs' errors, its status is failed iff some config's is, and the payload's errors and status are unchanged (empty status becomes ok).", "quantifier": "all payloads", "why_tests_cant": "unbounded payloads", "anchors": ["util.go:combineConfigs"]}
{"id": "C37", "title": "Combined reports exactly the dangling indices", "statement": "Combined returns an error iff the expansion reaches an include index that is not smaller than the number of configs, and the error names that index.", "quantifier": "all acyclic payloads", "why_tests_cant": "unbounded payloads", "anchors": ["util.go:performIncludes"]}
{"id": "C38", "title": "Combining is idempotent", "statement": "Combining a combined payload gives it back unchanged.", "quantifier": "all payloads on which Combined succeeds", "why_tests_cant": "relates two runs", "anchors": ["util.go:combineConfigs"]}
{"id": "C39", "title": "CombineConfigs cannot fail or loop after a successful parse", "statement": "When Parse reaches the combining step (all files opened, no include cycle) combining terminates and does not fail.", "quantifier": "all inputs", "why_tests_cant": "needs the include-index and acyclicity invariants for every run", "anchors": ["parse.go:Parse", "util.go:combineConfigs"]}
{"id": "C40", "title": "Enquote is read back as one token with the same value", "statement": "For every string, Enquote(s) followed by a delimiter lexes to one token with value s.", "quantifier": "all strings", "why_tests_cant": "infinitely many strings; the failing ones are unusual", "anchors": ["build.go:Enquote", "build.go:needsQuote", "build.go:escape", "util.go:repr", "lex.go:tokenize"]}
{"id": "C41", "title": "Build then Parse gives the directives back", "statement": "For every directive tree of quotable strings, building it with any indentation, tabs or header and parsing the result gives the same tree (line numbers aside).", "quantifier": "all directive trees, all build options", "why_tests_cant": "infinitely many trees", "anchors": ["build.go:Build", "parse.go:parse", "lex.go:tokenize"]}
{"id": "C42", "title": "Parse, Build, Parse is stable", "statement": "If a file parses without errors, building the result and parsing it again gives the same directives (line numbers aside), and building again gives the same text.", "quantifier": "all files that parse without errors", "why_tests_cant": "infinitely many files", "anchors": ["build.go:Build", "parse.go:Parse"]}
{"id": "C43", "title": "Formatting options do not change the meaning", "statement": "Indent, Tabs and Header only change whitespace and the leading header comment: the tokens of the built text are the same for all of them.", "quantifier": "all directive trees, all options with non-negative indent", "why_tests_cant": "infinitely many trees", "anchors": ["build.go:Build", "build.go:buildBlock", "build.go:margin"]}
{"id": "C44", "title": "A comment never swallows what follows it", "statement": "In the built text every comment is followed by a line feed or the end of the text, so no directive or brace is ever commented out by a comment directive whose text has no line feed.", "quantifier": "all directive trees, any line numbers", "why_tests_cant": "infinitely many trees and line assignments", "anchors": ["build.go:buildBlock"]}
{"id": "C45", "title": "Indentation", "statement": "A line at depth d is indented by d*Indent spaces, or d tabs, at every depth; Build never panics for Indent >= 0.", "quantifier": "all depths and indents", "why_tests_cant": "the code switches strategy at 100 columns", "anchors": ["build.go:margin"]}
{"id": "C46", "title": "Build writes the whole config or reports the write error", "statement": "Build writes header (iff requested) and body and returns an error iff a write failed; BuildInto creates one file per config in order, writes and closes each, stopping at the first error; a StringsCreator afterwards holds exactly one file per config with the built text and a final newline.", "quantifier": "all payloads, all writers and failure points", "why_tests_cant": "failures can happen at any step", "anchors": ["build.go:Build", "build.go:BuildInto", "buffer.go:StringsCreator"]}
{"id": "C47", "title": "BuildFiles writes trimmed files ending in one newline", "statement": "BuildFiles writes for each config, in order, at the config's path (joined to dir if relative) the built text without trailing whitespace followed by one line feed, and stops at the first failing operation leaving later files untouched.", "quantifier": "all payloads, all failure points", "why_tests_cant": "failures can happen at any step", "anchors": ["build.go:BuildFiles"]}
{"id": "C48", "title": "External builders are used exactly for their directives; the last registration wins", "statement": "A directive whose quoted name is registered is rendered by its builder after newline and margin; every other directive is rendered as without builders.", "quantifier": "all trees, all registrations", "why_tests_cant": "unbounded trees", "anchors": ["build.go:buildBlock", "build.go:applyBuildOptions"]}
{"id": "C49", "title": "Lua blocks survive build and lex", "statement": "Building a *_by_lua_block directive with the Lua builder and lexing it with the Lua lexer gives back the directive name and its arguments, for any Lua code with balanced braces.", "quantifier": "all balanced code", "why_tests_cant": "unbounded code", "anchors": ["lua.go:Lua.Build", "lua.go:Lua.Lex"]}
{"id": "C50", "title": "Directive.Equal is an equivalence and means same content", "statement": "Equal is reflexive, symmetric and transitive and holds iff both are nil or both have the same name, line, arguments, file, include indices, comment, map flag and pairwise Equal blocks (nil and empty lists not distinguished).", "quantifier": "all pairs and triples of directive trees", "why_tests_cant": "unbounded trees", "anchors": ["types.go:Equal", "types.go:equals", "types.go:strPtrEqual"]}
{"id": "C51", "title": "JSON encoding loses nothing", "statement": "Encoding a payload's directives as JSON and decoding gives the same directives, so that building from the JSON equals building from the payload.", "quantifier": "all directive trees", "why_tests_cant": "unbounded trees", "anchors": ["types.go:Directive (json tags)", "README.md"]}
{"id": "C52", "title": "ParseError text and unwrapping", "statement": "Error() is `What in File:Line`, with (nofile) when there is no file and without :Line when there is no line; a premature end of input unwraps to ErrPrematureLexEnd.", "quantifier": "all errors", "why_tests_cant": "all field combinations", "anchors": ["errors.go:ParseError.Error", "errors.go:ParseError.Unwrap", "parse.go:parse"]}
{"id": "C53", "title": "Generator filter and override", "statement": "The generated table contains exactly the directives found in the sources that are not filtered; a directive in Override gets exactly the override masks, every other one gets all masks of all its definitions in file order.", "quantifier": "all source sets, filters, overrides, map iteration orders", "why_tests_cant": "unbounded inputs and random map order", "anchors": ["internal/generator/generator_util.go:genFromSrcCode", "internal/generator/generator_util.go:getMasksFromPath"]}
{"id": "C54", "title": "The override flag grammar", "statement": "`name:m|m,m|m` is parsed into exactly that name and those mask lists, with surrounding spaces ignored, and a missing colon, empty name, empty definition or empty mask is an error.", "quantifier": "all flag values", "why_tests_cant": "infinitely many strings", "anchors": ["cmd/generate/cmd_util.go:overrideItem.UnmarshalText"]}
{"id": "C56", "title": "Block names containing > are confused with nested blocks", "statement": "The statement check treats a block named `a>b` exactly like a block `b` nested in a block `a`: whether a statement is accepted in the two is always the same, although they are different contexts.", "quantifier": "all block paths, names a and b, statements, terminators, options", "why_tests_cant": "Tests use ordinary block names; the claim is about every way of splitting a joined key.", "anchors": ["parse.go:30-32", "analyze.go:111-131", "analyze.go:143-200"]}
{"id": "C55", "title": "Masks generated from C definitions", "statement": "For the definitions of a C file, generation fails iff some mask name is not one of nginx's; otherwise the table has exactly the defined names, each with one mask per definition in order, whose Go constants are declared in analyze.go with the value nginx's name stands for - except that NGX_CONF_TAKE7 becomes an undeclared constant, so that the generated file does not compile.", "quantifier": "all lists of definitions (name text, mask text)", "why_tests_cant": "unbounded lists and texts; no tested source uses NGX_CONF_TAKE7", "anchors": ["internal/generator/generator_util.go:ngxVarNameToGo", "internal/generator/generator_util.go:masksFromFile", "analyze.go:60-110"]}
{"id": "C57", "title": "The Lua lexer and the Lua directive table agree", "statement": "Every directive the Lua lexer handles is in the Lua table, whose masks for it accept exactly what the lexer makes of its block: one argument (two for set_by_lua_block) and a semicolon; and the lexer handles every directive of the table that ends in _by_lua_block.", "quantifier": "all names of the lexer and of the table; all statements, terminators, contexts and options", "why_tests_cant": "The two lists are kept in different files, one by hand and one generated; tests use a few of the names. The second half is false: precontent_by_lua_block, proxy_ssl_certificate_by_lua_block and proxy_ssl_verify_by_lua_block are missing from the lexer.", "anchors": ["lua.go:directiveNames", "analyze_lua_directives.gen.go", "analyze.go:analyze"]}
{"id": "C58", "title": "The committed tables fit the committed generator configurations", "statement": "For each scripts/generate/configs/*.json there are C definitions from which the generator, with this filter and override, makes exactly the committed table: no filtered name is present, overridden names have the override's masks, and every other mask can be written with the mask names known to the generator.", "quantifier": "all configurations, all names", "why_tests_cant": "Tests use small example sources, not the committed tables and configurations.", "anchors": ["scripts/generate/configs", "analyze_*_directives.gen.go", "internal/generator/generator_util.go:genFromSrcCode"]}
{"id": "C59", "title": "The generator reads exactly the definitions of a well-formed C file", "statement": "If a C file consists of code and comments (block comments without // and not directly followed by a slash), and its code, with line ends removed, is text with tables `ngx_command_t name[] = { ... };` whose entries are `ngx_string(\"name\"), masks,`, then the generator finds exactly the names and masks of these entries, in order, and the masks it makes are those of these definitions.", "quantifier": "all C files: all texts, comments, line ends, blanks, any number of tables and entries", "why_tests_cant": "Tests use a few small C files. Which text surrounds a table - comments, gaps that look like the start of a table, blanks before brackets - is unbounded, and the conditions are needed: a web address in a block comment makes the generator lose the table after it.", "anchors": ["internal/generator/generator_util.go:masksFromFile", "internal/generator/generator_util.go:directivesDefineBlockExtracter", "internal/generator/generator_util.go:singleDirectiveExtracter", "internal/generator/generator_util.go:singleLineCommentExtracter", "internal/generator/generator_util.go:multiLineCommentExtracter"]}
{"id": "C60", "title": "The generated Go file declares exactly the table", "statement": "If all C and C++ files of the tree can be read and use known masks, names of directives have no characters that HTML or Go escape, and override masks, table name and function name are Go names, then the file the generator writes, read as Go tokens with inserted semicolons, is the package clause, a map literal with exactly the names and masks of the table, in ascending order of the names, and the match function. It does not depend on the order of Go maps or on other files, and the first file with an unknown mask is the error.", "quantifier": "all file trees, texts, configurations and maps", "why_tests_cant": "Tests compare the output for a few small sources; the template is an HTML template, so other names come out changed (a+b becomes a&#43;b), and a comment with a line feed is not a comment.", "anchors": ["internal/generator/tmpl/support_file.tmpl", "internal/generator/generator_util.go:genFromSrcCode", "internal/generator/generator_util.go:getMasksFromPath"]}
{"id": "C61", "title": "Flags win over the configuration file", "statement": "The generate command runs the generator iff every -override is well-formed, the configuration file, if given, is readable, and the source path and the names of map and function are given. Each value given on the command line replaces that of the file; all -filter together replace its filter, all -override together its override, the last override of a name winning. The first malformed -override ends the program whatever else is given.", "quantifier": "all command lines and configuration files", "why_tests_cant": "main.go has no tests; combinations of flags and files are unbounded.", "anchors": ["cmd/generate/main.go:main", "cmd/generate/cmd_util.go:Set"]}
{"id": "C62", "title": "Building a parsed payload into files and parsing it again gives it back", "statement": "If Parse, following includes, gives a payload without errors and BuildFiles writes it to a disk, with any indentation, tabs and header, then parsing these files with the same options gives the same files in the same order with the same status and the same directives, arguments, comments, blocks and include indices; only lines may differ (and the comments of the header are added). The same holds for the text that Build and BuildInto write.", "quantifier": "all files, include graphs, globs, parse options without external lexers, build options, disks", "why_tests_cant": "Tests rebuild a fixed set of directories. The number of files and includes, the order in which they are queued and the texts are unbounded, and some files do not come back: a comment at the end of a file loses the blanks at its end.", "anchors": ["build.go:BuildFiles", "build.go:Build", "build.go:BuildInto", "parse.go:Parse", "parse.go:parse"]}
{"id": "C63", "title": "A configuration stays valid under a newer directive table", "statement": "If a configuration parses without errors with ErrorOnUnknownDirectives and the directive tables of one version, it gives the same payload with the tables of a later version: along all tables of NGINX Plus up to the default table, from nginx 1.26 to the latest nginx and to NGINX Plus from R33 on, and from nginx 1.24 to 1.26 and from the latest nginx to the latest NGINX Plus for configurations without ssl and proxy_ssl_alpn respectively. In general this holds whenever each mask of the old tables has, for each of its contexts, a mask in the new ones that admits at least the same endings and arguments. The default table is the same as its three parts given one by one.", "quantifier": "all configurations, files, include graphs, parse options; all tables of the repository", "why_tests_cant": "Each table has hundreds of entries with several masks and contexts, and the claim is about all statements they admit, in all configurations; a context or an argument count dropped from one entry of a generated table is not seen by tests that parse a few files.", "anchors": ["analyze.go:analyze", "analyze.go:unionBitmaskMaps", "analyze_nplus_R30_directives.go", "analyze_nplus_R31_directives.go", "analyze_nplus_latest_directives.gen.go", "analyze_oss_124_directives.gen.go", "analyze_oss_126_directives.gen.go", "analyze_oss_latest_directives.gen.go", "parse.go:Parse"]}
{"id": "C64", "title": "Combining with goroutines gives the sequential result under every schedule", "statement": "performIncludes runs one goroutine per block and included config, sending over unbuffered channels. Whatever the scheduler does: if combineConfigs returns, it returns what a sequential expansion of the includes gives; as long as it has not returned some goroutine can go on; if the sequential result is a payload, every schedule ends after the same number of steps with all goroutines finished; if it is an error, the error can be returned from every state that is not a crash; a negative index never returns; configs that include each other in a circle never end; if no config includes itself, directly or through others, the number of steps of all schedules is bounded, and (unless an index is negative) every schedule that goes on as long as it can has then returned the sequential result.", "quantifier": "all payloads and all schedules", "why_tests_cant": "The Go scheduler picks one interleaving per run; tests see a handful of them.", "anchors": ["util.go:combineConfigs", "util.go:performIncludes"]}
{"id": "C65", "title": "Combined leaves no goroutine behind and does not crash where it would return an error", "statement": "Whatever the scheduler does, when Combined returns no goroutine of performIncludes is left blocked forever, and if the sequential result is an error no schedule crashes the program.", "quantifier": "all payloads and all schedules", "why_tests_cant": "A blocked goroutine is not visible to a test of the result, and the crash needs one particular interleaving.", "anchors": ["util.go:performIncludes", "util.go:combineConfigs"]}
{"id": "C66", "title": "External lexers in their own goroutines give the sequential tokens under every schedule", "statement": "tokenize calls an external lexer, which reads from the same scanner in a goroutine of its own and sends its tokens over its own channel; tokenize forwards them. Whatever the scheduler does and whatever the capacities of the two channels: the reader gets the tokens that a sequential call of the external lexer gives, in order; as long as the reader wants tokens some goroutine can go on; there is a bound on the number of steps that does not depend on the schedule; at the end all goroutines have returned; the scanner is never used by two goroutines at the same time; a reader that stops early leaves the goroutines blocked exactly if the remaining tokens do not fit into the channel. The Lua lexer is such an external lexer.", "quantifier": "all inputs, external lexers that close their channel, channel capacities, readers and schedules", "why_tests_cant": "The Go scheduler picks one interleaving per run, and a data race on the shared scanner would only show under some of them.", "anchors": ["lex.go:tokenize", "lex.go:SubScanner", "lua.go:Lua.Lex", "lex.go:LexWithOptions"]}
{"id": "C67", "title": "Configurations with Lua blocks survive Build and Parse", "statement": "A tree of comments, ordinary directives and Lua directives, at any depth and in any order, built with the Lua builder with any indentation, tabs and header, and parsed with the Lua lexer, gives back the same tree: the same names, arguments, comments and blocks, and the code of every Lua block character for character. The same holds for any external builders and lexers that fit together: each builder writes a registered name, a blank and a text that the lexer of the name reads up to its end. A payload parsed without errors with the Lua lexer is given back by building each of its configs into its file with the Lua builder, also through BuildFiles, and parsing the files again: the same files in the same order, the same trees, status and includes.", "quantifier": "all trees whose strings are read back (C40), whose comments are not two on one line, whose directives are accepted in their places, whose Lua code has closed quotes and balanced braces; all build options with the Lua builder, all parse options with the Lua lexer", "why_tests_cant": "Tests build and parse a few Lua files; nesting, comments at the end of external blocks, indentation and arbitrary code between the braces interact.", "anchors": ["lua.go:Lua.Lex", "lua.go:Lua.Build", "build.go:buildBlock", "lex.go:tokenize", "parse.go:parse", "build.go:BuildFiles"]}
{"id": "C68", "title": "A combined configuration is a configuration of its own", "statement": "A payload parsed without errors, in which every file is included in one context only, can be combined and built into one file. Parsing this file gives, without errors, the combined directives: the same names, arguments, comments and blocks. Every directive of the combined configuration is accepted at the place it stands in. Files included in two contexts and comments of different files with equal line numbers break this.", "quantifier": "all files, options and build options; payloads without errors whose files stand in one context at the depths of C29, whose strings are read back (C40) and whose comments are apart", "why_tests_cant": "Whether the combined text is accepted depends on the whole include graph: on every place a file is included at and on the contexts the parser stored for it.", "anchors": ["types.go:Payload.Combined", "parse.go:parse", "build.go:Build", "analyze.go:analyze"]}
{"id": "C69", "title": "Every file that is opened is closed, exactly once", "statement": "When Parse returns, with a payload, an error or a panic, every file it has opened (to parse it, or to see whether the file of an include directive exists) has been closed exactly once, after it was opened, the last one first. The files opened for include directives are closed at the end of their block; the files that are parsed are all open until Parse returns. BuildFiles and BuildInto have at most one file open at a time, close it before the next one is created, and leave none open, except one whose writing failed.", "quantifier": "all environments, files, options, outcomes of open, create, write and close", "why_tests_cant": "A leaked or doubly closed handle does not show in results; every error path and every nesting of blocks would have to be exercised with a file system that counts handles.", "anchors": ["parse.go:Parse", "parse.go:parse", "build.go:BuildFiles", "build.go:BuildInto"]}
{"id": "C70", "title": "The parser accepts exactly the configurations of a grammar", "statement": "There is a grammar over tokens (statements ended by `;`, blocks, parameters of map-like blocks, comments, statements of ignored names that are left out) with the rules of C24 and C27 for every statement in its block context. A file that is read alone is a configuration of this grammar with tree T iff Parse gives a payload without errors with exactly the tree T (names, lines, arguments, comments, marks), and its tokens are statements (each ended by `;` or a block of statements) and comments, without errors. Without external lexers and IgnoreDirectives the last condition is that the file starts with a word and every statement in it is ended by `;` or a block. The grammar is unambiguous. Files outside of it give an error. Without the conditions the parser accepts more: a file that starts with `;` or `{`, and an unknown directive without `;` at the end of a block.", "quantifier": "all texts and options without CombineConfigs, any external lexers and IgnoreDirectives; files whose include directives are not followed", "why_tests_cant": "Both directions quantify over all texts: every text of an infinite language must be accepted with the right tree, and every other text rejected.", "anchors": ["parse.go:parse", "parse.go:Parse", "analyze.go:analyze", "analyze_map.go:analyzeMapBody", "lex.go:tokenize"]}
{"id": "C71", "title": "The parser accepts exactly the projects of several files", "statement": "A project is a list of files: the first is the one given; the others come in the order in which they are first included, each in the block context of that place; each file is a configuration of the grammar of C70 in its context, in which every include directive names files that exist; the links of include directives are the positions of these files; no file includes itself over others. Files are a project iff Parse gives a payload without errors with exactly these files, trees and links, the contexts being those of the first includes in this payload, provided every context has a depth at which append allocates (0 to 3, 5, 9, 17, 33 blocks), and the tokens of every file are statements (without external lexers and IgnoreDirectives: every file starts with a word and every statement is ended). At other depths it is false (an include in four blocks). With CombineConfigs the payload of a project is one config: the first file with every include directive replaced in place, at every depth, by the directives of the files it names.", "quantifier": "all file systems that do not change during the parse, all options without SingleFile, any external lexers and IgnoreDirectives", "why_tests_cant": "Both directions quantify over all sets of files with includes and patterns of any shape, shared files and cycles among them; contexts, order and links depend on all files read before.", "anchors": ["parse.go:Parse", "parse.go:parse", "parse.go:enterBlockCtx", "util.go:isAcyclic", "analyze.go:analyze"]}
{"id": "C72", "title": "A payload is not larger than the files it was read from, unless they are combined", "statement": "Without CombineConfigs every file is in the payload once, and the size of all trees (characters of names, arguments and comments, and one for each name and argument) plus the number of errors is at most the size of the tokens of the files; without external lexers this is at most 2n+1 for each file of n characters. With CombineConfigs there is no polynomial bound: for every n there are n+1 files of at most 2n+20 characters each whose combination has 2^n directives.", "quantifier": "all environments, options and files; all n", "why_tests_cant": "A bound on every input is no property of samples; the exponential case needs a family of inputs of any size, whose results no test can hold.", "anchors": ["parse.go:Parse", "parse.go:parse", "types.go:Combined", "lex.go:tokenize"]}
{"id": "C73", "title": "IgnoreDirectives leaves out exactly the directives of these names", "statement": "If Parse gives a payload without errors, then with more names in IgnoreDirectives it gives a payload without errors, with the same files, in the same order and with the same links, and each tree is the one from before without the directives of these names, at any depth, with their blocks; parameters of map-like blocks and comments are kept. Conditions: the tokens of the files are statements (C70), the directives left out include no files, also in their blocks, and comments are not kept or stand between statements. With a comment among the arguments of a directive that is left out it is false: the comment is lost. There is no converse: a file may be accepted only because a directive is left out.", "quantifier": "all texts, lists of names, options without CombineConfigs; one file read alone, or all file systems that do not change during the parse", "why_tests_cant": "It relates two runs on every text and every list of names; skipping must end at the matching brace whatever stands in the block.", "anchors": ["parse.go:parse", "parse.go:Parse", "util.go:contains"]}
{"id": "C74", "title": "An error in one statement leaves the other statements alone", "statement": "Without StopParsingOnError, if a file is a sequence of statements, some of them wrong, then Parse gives the tree of the right statements, and exactly one error for each wrong statement, in order and with its line. Proved where the wrong statements are: directives ended by `;` that are not accepted, directives with a block that are known and should be ended by `;`, and wrong parameters of map-like blocks, with or without a block. False for a directive with a block that is rejected for its context or its arguments or because it is unknown: its block is not skipped, its statements are read as if they stood around it, and its `}` closes the block around it, so that at the top of the file all that follows is lost without an error.", "quantifier": "all texts, options without CombineConfigs and StopParsingOnError, one file read alone", "why_tests_cant": "Any number of wrong statements at any depth, with any blocks; each must leave the parser at the start of the next statement and in the same context.", "anchors": ["parse.go:parse", "parse.go:handleError", "analyze.go:analyze", "analyze.go:analyzeMapBody"]}
{"id": "C75", "title": "The concatenation of files is parsed to the concatenation of their trees", "statement": "If two files are parsed without an error and the first is empty or ends in a line feed, the file with the text of the first and then the text of the second is parsed without an error, and its tree is the tree of the first and then the tree of the second, where all lines are later by the number of lines of the first. The tokens are related in the same way. If the files have wrong statements of the kinds of C74, the errors are those of the first and then those of the second, on later lines. Conditions: the tokens of the files are statements (C70), and every external lexer that is called while the first file is read ends before its last line feed, whatever follows (for Lua: every block of the first file is closed); external lexers use the line only for the lines of their tokens. Without the line feed it is false: if the first file ends in a comment, statements of the second are lost without an error. With a Lua directive without a block in the first file it is false as well: the Lua lexer reads on in the second file, and the first letter of it is lost without an error.", "quantifier": "all pairs of texts, all options without CombineConfigs, all external lexers with the conditions above, files read alone", "why_tests_cant": "It relates three runs on every pair of texts; the lexer must be in its initial state, up to the line, after any whole lines of statements.", "anchors": ["lex.go:tokenize", "lex.go:Lex", "parse.go:parse", "parse.go:Parse"]}
{"id": "C76", "title": "Parse and the goroutines of its lexers", "statement": "Parse reads each file through a channel from a goroutine that lexes it, and returns while these goroutines may still be running. For every schedule and every capacity of the channels the result of Parse is the one of the sequential program; as long as Parse has not returned some goroutine can make a step, and the number of steps is bounded (no deadlock, no endless run). Once nothing can move Parse has returned and every lexer has either ended or is blocked forever on a full channel. A lexer can be blocked forever if and only if Parse leaves more tokens of its file unread than the channel holds. If the payload has no errors, the tokens of the files are statements (C70) and CombineConfigs is off, no lexer is left behind. Otherwise they can be: with StopParsingOnError in any file with an error, and without it after a block rejected at the top of a file, when more tokens follow than the capacity.", "quantifier": "all file systems, texts and options, all schedules, all capacities of the channels (also 0)", "why_tests_cant": "A test sees some schedules only, and a goroutine left behind does not show in the result.", "anchors": ["parse.go:Parse", "parse.go:parse", "lex.go:LexWithOptions", "lex.go:tokenize", "lex.go:TokenChanCap"]}
{"id": "C77", "title": "An include directive is the text of the files in its place", "statement": "Let the include directives in the first file of a project (C71) be replaced by the texts of the files they stand for, one after the other and also in the texts put in, until every include directive that is left stands for no file. Then the text, parsed alone, is accepted and its tree is the one Parse gives for the project with CombineConfigs, except for lines and file names. Conditions: every file is included in one block context only, no include directive has a block or stands in a block of parameters (map, types, ...), comments are left out or stand between statements, a file does not end in a comment without a line feed, include is not in IgnoreDirectives, fresh depths (C29). With external lexers also: they use the line only for the lines of their tokens, none is registered for a name with #, and what they read ends before the end of each file and before the include directive that is replaced; for Lua this means that every Lua block is closed and something comes after it. Without the first two conditions it is false: a file included in two contexts is checked in the first one only, and include directives in blocks of parameters are not followed. It is also false for an included file with a Lua directive without a block.", "quantifier": "all projects of any number of files, all orders of replacement, all options, all external lexers with the conditions above", "why_tests_cant": "It relates a run over many files and their combination with a run on a text made from them by any sequence of replacements.", "anchors": ["parse.go:Parse", "parse.go:parse", "parse.go:combineConfigs", "lex.go:tokenize", "lua.go:Lua.Lex"]}
{"id": "C78", "title": "The layout of a file does not matter", "statement": "If the files are reformatted - other blanks and line feeds between names, arguments, comments, braces and semicolons, other carriage returns, single for double quotes, quotes around words that are not special without them or no such quotes - then Parse gives the same result: the same payload with the same files, directives, errors and status, or the same error or panic; only line numbers differ. Line numbers are only copied: this holds whenever the tokens of the files differ only in lines and in quotes around words that are neither braces, semicolons nor comments without them, for all options and any external lexers. With external lexers reformatting is not always allowed: an argument before a line feed may be taken for the name of a directive that has an external lexer.", "quantifier": "all files, environments, options and all pairs of layouts", "why_tests_cant": "It compares the runs on all pairs of layouts of all files, with errors and includes in them.", "anchors": ["parse.go:Parse", "parse.go:parse", "lex.go:tokenize", "util.go:combineConfigs"]}
{"id": "C79", "title": "Every error is about a mistake in the file and on the line that it names", "statement": "Every error of a payload is about a mistake that is there: the file it names was read, and its tokens contain an error of the lexer, or a last statement without an end, or a statement that is not acceptable in a block context (as a parameter of a map-like block, or by the masks of the directive), or a right include directive whose file cannot be opened, whose pattern is malformed or that has no argument. The line of the error is that of the first token of the statement, its statement is the name and the arguments, its block is the innermost one. The same holds for the error that is returned with StopParsingOnError. The line is a line of the file, and the errors of a file come in the order of their lines.", "quantifier": "all files, environments and options; for lines with external lexers that send their tokens in order and on lines they read", "why_tests_cant": "Errors depend on how the parser goes on after earlier errors, on the masks and on the file system; it must be known of all runs that no error is made up.", "anchors": ["parse.go:parse", "parse.go:Parse", "analyze.go:analyze", "analyze.go:analyzeMapBody", "lex.go:tokenize"]}
{"id": "C80", "title": "What becomes of any file, right or wrong", "statement": "For every file read alone it is determined statement by statement what becomes of it: `Statement` says for the next tokens, whatever they are, which directives are made of them, whether there is an error and on which line, and where the next statement starts; of all tokens together a tree and a list of lines result, or the file is ended by an error or a crash. Parse gives exactly this tree and errors on exactly these lines in this order; if an error ends the file, it has no tree; with StopParsingOnError the first of these errors is returned. A crash happens only where an `if` is accepted whose arguments are not in parentheses in the way that is expected. The rules include where the next statement is looked for after a wrong one: after a wrong directive without a block that should be ended by `;` (the last of its masks for the context decides), its block is skipped; after any other wrong directive with a block, the contents of the block are read as if they stood around it.", "quantifier": "all sequences of tokens, all options without CombineConfigs, one file read alone", "why_tests_cant": "It is a full description of the parser on every input, right or wrong, with every set of masks and options; tests can only sample mistakes and have no second description to compare with.", "anchors": ["parse.go:parse", "parse.go:handleError", "analyze.go:analyze", "analyze_map.go:analyzeMapBody"]}
{"id": "C81", "title": "What becomes of any configuration of several files, right or wrong", "statement": "For every configuration in an unchanging file system it is determined which files are read, in which order and in which block contexts, what is kept of each, on which lines there are errors and how it ends (`Work`: a worklist over C80 with include directives that are followed). With errors collected and without CombineConfigs, Parse gives exactly this: if all files can be read and none includes itself, a payload with these files in this order, each with the tree that is kept, its links and its lines of errors, status failed iff it has an error, and with the errors of all files in order; if a file includes itself, the cycle error and no payload; if a pattern has given a name that cannot be opened, the error of opening it and no payload; a crash where a file says so. An include of a missing file by its name is one error on its line and the directive is kept without links; an include without an argument or with a malformed pattern ends its file. In a file system with finitely many files something becomes of every file, so these are all cases. The payload is ok iff no file has an error and none includes itself. With StopParsingOnError the result is the first of the errors, in the order in which the files are read, also if without it there is no payload; if there are no errors, it is the same as without it. With CombineConfigs there is no payload in the same cases, for the same reason; otherwise the payload has one config: what is kept of the first file, with every include that was followed replaced by what is kept of the files it names, with the errors of all files in order.", "quantifier": "all files, file systems with finitely many files, options, external lexers; include depths at which C29 holds", "why_tests_cant": "It is an exact description of the result for all configurations, also those with any combination of errors in any of the files.", "anchors": ["parse.go:parse", "parse.go:handleError", "analyze.go:analyze", "analyze_map.go:analyzeMapBody"]}
{"id": "C82", "title": "Files that are not mentioned do not matter", "statement": "Call a file reachable if it is the file given to Parse, or if in the tokens of a reachable file the word include is followed (maybe after comments) by its path, or by a pattern that it matches. If two file systems agree on the reachable files and on the matches of the patterns mentioned in them, Parse gives the same on both: the same payload, the same error, the same crash, with any options. In particular the content, the presence or the errors of any other file have no influence. With SingleFile only the file itself matters.", "quantifier": "all pairs of file systems (also changing with every access), files, options, external lexers", "why_tests_cant": "It is about what does not influence the result: all other files with all their contents.", "anchors": ["parse.go:Parse", "parse.go:parse"]}
{"id": "C83", "title": "The text of a directive is its own", "statement": "Build is local. In any tree, for any directive that is not a comment and has no external builder, at any place inside written blocks, there is a text before and a text after it that do not depend on the directive except for its line number, and what Build writes is the text before, the directive's own lines with the margin of its depth, and the text after. So replacing, renaming or rewriting one directive changes nothing else in the file as long as its line number is kept. The text of two lists of directives one after the other is that of the first, a line feed, and that of the second, unless the second starts with a comment on the line of the last of the first. Both conditions are needed.", "quantifier": "all trees, places, directives, build options with an indent that is not negative, external builders", "why_tests_cant": "It compares the output for all contents of a place in all trees.", "anchors": ["build.go:Build", "build.go:buildBlock"]}
{"id": "C84", "title": "Build options can be used again", "statement": "Build, BuildInto and BuildFiles write to the options they are given (the default of Indent, and the hidden map of builders). A program that uses one options value for any number of these calls, in any order, also after calls that failed, and between them assigns to Indent, Tabs and Header, gets from every call the same errors and the same effects as with new options of the same fields. It may assign to Builders as long as there were none. Otherwise this is false: after a call Build does not use new builders and goes on to use the old ones, and BuildFiles uses both.", "quantifier": "all sequences of calls and assignments, writers, creators, operating systems (with failing calls), configs, builders", "why_tests_cant": "It compares all histories of an options value; a test has one.", "anchors": ["build.go:Build", "build.go:BuildFiles", "build.go:BuildInto", "build.go:applyBuildOptions"]}
{"id": "C85", "title": "Build options shared between goroutines", "statement": "If Indent is not 0 and there are no builders, or if Build has been called with the options before, any number of goroutines may call Build with the same options at the same time: under every schedule no goroutine is ever about to write to the options, and every goroutine that has finished has written what it would write alone. With an indent of 0 and without builders every finished goroutine has still written the right text, though goroutines may be about to write Indent at the same time. With new options and builders it is false: a goroutine may find the map of builders made but not filled, and write directives without their builders.", "quantifier": "all schedules, numbers of goroutines, configs and options", "why_tests_cant": "It quantifies over schedules; a test sees one of them.", "anchors": ["build.go:Build", "build.go:applyBuildOptions"]}
{"id": "C86", "title": "Parse options can be used again and shared", "statement": "A program that uses one ParseOptions value for several calls of Parse, one after the other with assignments to the options and changes of the file system between them, or at the same time in any number of goroutines, gets from every call what it would get with options of its own; if Glob is set Parse does not write to the options, and if it is nil two goroutines can be about to write it at the same time.", "quantifier": "all sequences of calls and assignments, all schedules, all options and file systems", "why_tests_cant": "Tests use new options for every call and run them one at a time; the default that Parse stores in the options stays unnoticed.", "anchors": ["parse.go:Parse", "lex.go:LexWithOptions"]}
{"id": "C87", "title": "Combined leaves the payload alone, and what the two share", "statement": "Combined changes no object of the memory it finds: afterwards the old payload still reads as before, also after any assignments to objects made by Combined. The result reads as the sequential model says; its directives and blocks are all new and none of them occurs at two places, so an assignment to a field of a directive of the result, or to an element of a block, changes neither the old payload nor any other place of the result. Every directive of the result has the arrays of Args and Includes and the Comment string of a directive of the old payload. Therefore the same is false for elements of Args: an assignment to one changes the old payload, and every other place where the same file is included. A payload without configs is returned itself.", "quantifier": "all payloads, represented in all memories", "why_tests_cant": "The tests compare the result with an expected tree; sharing is invisible to such a comparison.", "anchors": ["types.go:Combined", "util.go:combineConfigs", "util.go:performIncludes"]}
{"id": "C88", "title": "Parse with all goroutines: lexers and external lexers", "statement": "The whole program with its goroutines: Parse receives the tokens of a file from tokenize, which reads the file rune by rune, starts the goroutines of external lexers (Lua), lets them read from the same scanner and forwards what they send; the goroutines of earlier files may still be running. For every schedule and all capacities of the channels the result of Parse is the one of the sequential program; as long as Parse has not returned some goroutine can make a step; no schedule goes on forever, and there is a bound for the number of steps under all schedules. When nothing can move, Parse has returned, and each lexer has ended together with its external lexers, or it is blocked for good on its full channel; an external lexer of it has then ended or is blocked for good too. A lexer can be blocked for good if and only if Parse leaves more tokens of its file unread than the channel holds; without errors none is. Otherwise two goroutines of one file can be left behind: the lexer, with a token of a Lua block, and the Lua lexer, with the next one.", "quantifier": "all file systems, texts and options, all external lexers that close their channel, all schedules, all capacities of both kinds of channels (also 0)", "why_tests_cant": "A test sees some schedules only, and a goroutine left behind does not show in the result.", "anchors": ["parse.go:Parse", "parse.go:parse", "lex.go:LexWithOptions", "lex.go:tokenize", "lex.go:SubScanner", "lua.go:Lua.Lex"]}
{"id": "C89", "title": "A configuration can be moved", "statement": "If the files of a configuration are put to other paths, different files to different paths, such that the patterns of their include directives stand for the new paths and the matches of a pattern keep their order, then Parse gives the same result with the new paths: the same directives with the same lines and indices of included files, the configs in the same order with the same statuses, the same errors at the same lines, and the same decisions about cycles; also with CombineConfigs, where the file names in the directives are the new paths. In particular a directory tree can be put under another root whose name has no *, ? or [, if its include directives have relative paths only. With an absolute path in an include directive this is false. (The texts of errors of the file system may differ, and what a callback makes of an error.)", "quantifier": "all pairs of file systems, all injective renamings of paths, all options", "why_tests_cant": "The tests use configurations in a few fixed places; that Parse never looks into a path except to resolve it shows only for all paths.", "anchors": ["parse.go:Parse", "parse.go:parse", "parse.go:isAcyclic", "util.go:combineConfigs", "analyze.go:analyze"]}
{"id": "C90", "title": "What quoted arguments show, and which arguments are written alike", "statement": "An argument that needs quotes is written by Enquote between double quotes, or between single quotes if it contains a double quote. Between them every character that can be printed stands for itself (with a backslash before a single quote within single quotes), and every other one is replaced by its escape in Go: a letter, two hexadecimal digits for a control character, else four or eight, with the code of the character as value. Two arguments are written alike if and only if they are equal, or both need quotes and are shown alike. So arguments of printable characters are written alike only if they are equal; but a line feed and the two characters \\n are written alike.", "quantifier": "all strings, all sets of printable characters", "why_tests_cant": "The tests quote a few strings; that no two printable strings are confused, and that every escape has the right digits, is about all of them.", "anchors": ["build.go:Enquote", "build.go:needsQuote", "util.go:repr"]}
{"id": "C91", "title": "Files with the same tree have the same words", "statement": "Consider files that Parse reads without errors, which start with a word (comments aside) and end every statement with ; or a block. The tokens of such a file, its comments left out, are exactly the words of the tree in order, with every mark (;, { or }) at its place, if no directive is an if. So two such files (of any two parses, with any options that ignore nothing and combine nothing) whose trees are the same but for lines have the same words and marks in the same order: they differ only in blanks, line feeds, comments and quotes. This also holds with external lexers, for texts in which marks stand apart and braces are balanced. For if it fails: the tree keeps neither parentheses nor where the words at them end.", "quantifier": "all environments, files, texts, options without ignored directives and without combining, external lexers", "why_tests_cant": "The tests compare the trees of a few files; that a tree determines the words it was read from is about all pairs of files with the same tree.", "anchors": ["parse.go:parser.parse", "parse.go:Parse", "lex.go:tokenize", "util.go:prepareIfArgs"]}
{"id": "C92", "title": "When building panics, and what is left then", "statement": "Build panics if and only if Indent is negative and a line of the layout is too deep (deeper than 0, or deeper than 100 with Tabs), and the header, if there is one, could be written; otherwise, also for a negative Indent, the body is exactly the lines of the layout. At a panic of BuildInto the configs before were written completely and their files closed, and the file of the config that panics was created, has the header at most, and is left open. At a panic of BuildFiles the files before were written completely and closed, no file is open, and the file of the config that panics was not touched.", "quantifier": "all payloads, options (any Indent), builders that do not panic themselves, operating systems and creators with any failures", "why_tests_cant": "The tests build with a few indents from 0 to 4; which trees panic and what is left behind then is about all trees and all states of the disk.", "anchors": ["build.go:margin", "build.go:buildBlock", "build.go:Build", "build.go:BuildFiles", "build.go:BuildInto"]}
{"id": "C93", "title": "The order of the directive sources", "statement": "Replace the DirectiveSources by others that know the same names with the same masks, for instance the same sources in another order. If Parse had no errors the payload is the same. In general the result is the same up to the messages of errors (same directives, statuses, and errors about the same statements in the same places) if parsing stops at the first error, or if all masks of a name for one context agree in whether they want a block. The tables of the repository, any of them together, agree in this when contexts are checked. Without that condition it is false: the order can decide which directives are in the tree after an error.", "quantifier": "all options, file systems, texts and match functions", "why_tests_cant": "Tests use a few lists of sources in one order each; that no order changes the result is about all lists and all texts.", "anchors": ["analyze.go:analyze", "parse.go:Parse", "parse.go:parser.parse", "parse.go:MatchFunc"]}
{"id": "C94", "title": "A file of a configuration, read alone", "statement": "Let Parse without CombineConfigs give a payload. Then with SingleFile, Parse gives for the main file the first config of this payload: the same directives but for Includes, the same errors but for those about files to include that cannot be opened; except when the reading of the main file was ended by an include directive (one without argument, or with a pattern that Glob refuses). If the payload has no errors and no include directive stands in a block, every config of it is what SingleFile gives for its file. Without this condition that is false: a file included in a block is not accepted alone.", "quantifier": "all options, file systems and texts; for every file: file systems that do not change", "why_tests_cant": "The tests compare a few payloads with SingleFile to fixed values; that reading one file and reading all agree on that file is about all configurations.", "anchors": ["parse.go:Parse", "parse.go:parser.parse", "parse.go:parser.handleError"]}
{"id": "C95", "title": "A file that was cut off", "statement": "Let a file (alone, without external lexers, without IgnoreDirectives) be accepted by Parse, start with a word and have every statement ended by ';' or a block. If this file is cut off at any point, Parse either accepts it, and then the tree is the beginning of the tree of the whole file, where only the last directive may differ, namely if it is a comment that is now shorter; or there is exactly one error, in this file, and no directives (with StopParsingOnError: an error). The parser does not crash and makes nothing else of it. It is accepted just when the cut is between statements, or in a comment between statements, that are not in a block. The tokens of the cut text are those of the whole text up to the cut, a last token that may be shorter, and the error about a missing '}' if a block is open. With IgnoreDirectives it is false: if the cut is in the block of an ignored directive, a block around it is accepted without what is missing in it.", "quantifier": "all texts and all places of the cut, all options (as restricted), all file systems", "why_tests_cant": "A test cuts a few files at a few places; that no cut of any file is parsed to something that is not the beginning of the whole is about all files and all places.", "anchors": ["lex.go:tokenize", "parse.go:Parse", "parse.go:parser.parse"]}
{"id": "C96", "title": "An edit of a file changes the tree at one place", "statement": "Let a file (alone, without external lexers, without IgnoreDirectives) be accepted by Parse, start with a word and have every statement ended by ';' or a block. Let some successive statements of it, in whatever block, be replaced by other statements (maybe none; maybe none were there before), the text before and after being left as it is. Then the new file is accepted if and only if the new statements are acceptable by the grammar in the context of the block they stand in - nothing else in the file matters - and the tree of the new file is the tree of the old file in which, at one place, the directives of the new statements stand for those of the old ones; what precedes the place is unchanged, and what follows it is as many lines later as the new statements have more lines. If some of the new statements are wrong (in the ways of C74), the errors are exactly theirs, on their lines, and the tree has the other new statements. In particular, deleting statements or replacing them by comments always gives a file that is accepted, with the tree without these directives; and a line that begins with '#' is one comment.", "quantifier": "all texts before, in and after the edit, all nestings, all options (as restricted), all file systems", "why_tests_cant": "A test edits a few files; that no edit has an effect elsewhere in the tree, and that its acceptance depends on nothing but the context, is about all files, places and edits.", "anchors": ["lex.go:tokenize", "parse.go:Parse", "parse.go:parser.parse", "analyze.go:enterBlockCtx"]}
{"id": "C97", "title": "An edit of one file of a configuration leaves the other files alone", "statement": "Let a configuration of several files (includes followed, no errors, on a file system that does not change during the parse) be given, and let one of its files be exchanged for another text that is a configuration in the same context and has the same includes: the same files, in the same order and contexts. Then Parse reports no error, and the payload is the old one with another tree for this file: the other files, their order, their trees and the links of their includes are unchanged. In particular, let some successive statements of one file, in whatever block, be replaced by others that are acceptable in the context of this block (where the context the file was included in counts too) and include the same as before, e.g. nothing. Then the tree of this file changes at one place, and what follows it is as many lines later as there are more lines; nothing else changes. Statements that include nothing can always be deleted or replaced by comments. If the new text has mistakes but something is kept of it that has the same includes - in particular if some of the new statements are wrong in the ways of C74 - then, with errors collected, the errors are exactly those of this file, on their lines; the other files are ok and unchanged.", "quantifier": "all configurations of any number of files, all files of them, all places and edits, all options (the second part: without external lexers and IgnoreDirectives), all file systems that do not change", "why_tests_cant": "A test edits one file of a few configurations; that no edit of any file can have an effect on the tree or the links of another one is about all configurations and edits.", "anchors": ["parse.go:Parse", "parse.go:parser.parse", "lex.go:tokenize", "analyze.go:enterBlockCtx"]}
{"id": "C98", "title": "External lexers and builders that are not used do not matter", "statement": "If two lists of registered lexers give the same tokens for every file, Parse gives the same result with them. A lexer none of whose names stands anywhere in a text (not even in a comment, in an argument or across a deleted carriage return) gives the same tokens as no lexer, provided that its names contain no quotes; so Parse gives the same result as without lexers if this holds of all files that can be opened. In particular files in which _by_lua_block does not occur are parsed as without the Lua lexer. If two lists of registered builders agree on all names of directives in a config, in whatever block, as the names are written (enquoted), Build writes the same text; in particular builders for no name of the config change nothing.", "quantifier": "all lists of external lexers (any functions), all texts and file systems, all options; all lists of builders (any functions), all configs and options", "why_tests_cant": "That a registered lexer or builder is never called by accident is about all texts and trees; a test can only try some, and the cases in which a lexer is called unexpectedly (an argument before a line feed, the end of a longer name, the value of a quoted string) are easily missed.", "anchors": ["lex.go:tokenize", "lex.go:LexWithOptions", "parse.go:Parse", "lua.go:Lua.RegisterLexer", "build.go:Build", "build.go:buildBlock"]}
{"id": "C99", "title": "What nginx reads, the lexer reads too", "statement": "Let a text be accepted by the reader of nginx itself (ngx_conf_read_token with the counting of blocks, as specified in Spec/Nginx), and let every carriage return in it stand before a line feed and outside of parameters. Let every unquoted parameter that nginx reads have no backslash, no Unicode blank, and braces only as in ${name}. Then the lexer reports no error, and its tokens, comments aside, are exactly the parameters and special characters nginx reads, in the same order, marked as quoted if they were; in a quoted string only the backslashes before its own quotes are dropped. If moreover no parameter has a backslash, the values are those nginx uses. Without the conditions this is false of the code: for a } in a word, for blanks that are not ASCII, for blanks after ${, for \\$ before {, for a carriage return within a line, and for the values of parameters with backslashes. The lexer also accepts texts that nginx rejects, e.g. text right after a closing quote.", "quantifier": "all texts that nginx accepts, with the stated conditions on parameters and carriage returns", "why_tests_cant": "A test compares the lexer with nginx on some files; that two readers with different states split every text alike is a statement about all texts, and the exceptions are found by trying to prove it.", "anchors": ["lex.go:tokenize", "lex.go:LexWithOptions"]}
{"id": "C100", "title": "nginx reads what Build writes", "statement": "Let a tree be given in which all names and arguments consist of printable characters other than the backslash, tabs and line ends, and do not start with a number sign; the arguments of if need no quotes, and comments have no line feeds. Then the reader of nginx (as specified in Spec/Nginx) accepts the text that Build writes, with any indentation, with or without the header, and reads exactly the directives of the tree: their names and arguments with the same values (those of if with the parentheses), their ends and their blocks, in order. The same holds of the files that BuildFiles writes, where blanks at the end are dropped and a line feed is added, and of the strings of BuildInto. In particular every such argument is read as one parameter with the same value however Enquote writes it, also with quotes of both kinds, and with tabs and line ends, which nginx, other than the lexer of this repository, does read back. Without the conditions it is false of the code: for backslashes, for characters that cannot be printed, for arguments that start with a number sign, and for an if whose first argument needs quotes.", "quantifier": "all trees of such strings, all options without external builders", "why_tests_cant": "A test would have to run nginx on the output for some trees; that the quoting of Build and the reading of nginx fit together for all strings is a statement about two programs and all inputs.", "anchors": ["build.go:Build", "build.go:buildBlock", "build.go:Enquote", "build.go:needsQuote", "util.go:repr", "build.go:BuildFiles", "build.go:BuildInto"]}
{"id": "C101", "title": "Parsing and building a file does not change what nginx reads", "statement": "Let Parse read a configuration without errors, with nothing ignored and without external lexers or CombineConfigs. For every file of the payload that nginx (as specified in Spec/Nginx) accepts, the text that Build writes for it is accepted by nginx too, and nginx reads the same parameters with the same values, the same ends of statements and the same blocks, in the same order, whatever the indentation, with or without the header, with or without comments. The same holds file by file of what BuildFiles writes for the payload. Conditions: the carriage returns of the file end lines; words without quotes have no backslashes, no Unicode blanks and braces only as in ${name}; in quoted strings backslashes stand only where the lexer and nginx agree on the value; the values have printable characters (other than the backslash), tabs and line ends, and do not start with a number sign; every if has parentheses around at least one parameter, no blanks next to them, and parameters that need no quotes; and no parameter of a map-like block has the name if. Without the conditions it is false of the code for an if with blanks next to its parentheses or without parentheses, for a parameter with the name if of a map-like block, which gets parentheses, and for a quoted string that starts with a number sign: nginx rejects what is built.", "quantifier": "all environments, payloads, files and options of Parse and Build without extensions", "why_tests_cant": "It compares what a third program reads from two texts, for all texts; tests compare trees for a few files and never ask nginx.", "anchors": ["lex.go:tokenize", "parse.go:parse", "build.go:Build", "build.go:buildBlock", "build.go:Enquote", "build.go:BuildFiles"]}
