"""Writes MANIFEST.json from the list below."""
import json, os
C = []
def claim(prop, status, theorems, note):
    C.append({"property": prop, "status": status, "theorems": ["Verif." + t for t in theorems], "note": note})

claim("C01", "proved", ["C01_receives_in_order", "C01_schedule_independent", "C01_drain", "C01_drain_prefix"], "")
claim("C02", "proved", ["C02_no_deadlock", "C02_terminates", "C02_drain_completes", "C02_leak_iff", "C02_leaks"], "")
claim("C03", "proved", ["C03_tokens_of_items", "C03_every_text_is_items"],
      "Every text splits into items of Spec/Items.lean and lexing gives exactly their tokens.")
claim("C04", "proved", ["C04_carriage_returns", "C04_same_text"], "Without external lexers, as the property says.")
claim("C05", "partial", ["C05_lines_ordered", "C05_lines", "C05_lines_iff", "C05_lines_plain", "C05_lines_partial", "C05_false", "C05_external", "C05_lua", "C05_false_lua"],
      "Order and range for every text, and the exact line of every token (C05_lines). It is the line where the token starts exactly if no word starts with an escaped line feed and no special "
      "character directly follows a word with a line feed (C05_lines_iff); otherwise it is false (C05_false). With external lexers order and range hold, "
      "for error tokens with the line of the error, if the external lexers send their tokens in order and on lines they read (C05_external), as the Lua lexer does (C05_lua); the lines of error tokens "
      "themselves may be wrong (C05_false_lua).")
claim("C06", "proved", ["C06_no_error_iff", "C06_tokens_balanced"], "")
claim("C07", "proved", ["C07_errors"], "")
claim("C08", "proved", ["C08_token_shapes", "C08_not_empty", "C08_plain_word"], "")
claim("C09", "proved", ["C09_decodes", "C09_chunking", "C09_utf8"], "")
claim("C24", "proved", ["C24_accepts_iff", "C24_accepts_exactly", "C24_error_fields", "C24_error_names_directive"],
      "C24_accepts_iff is for block paths whose names contain no '>'; C24_accepts_exactly covers all names, with the path the code sees (C56).")
claim("C25", "proved", ["C25_skip_context_accepts_more", "C25_skip_args_accepts_more", "C25_skip_all", "C25_source_order", "C25_source_permutation", "C25_parse"], "")
claim("C34", "partial", ["C34_masks", "C34_contexts_partial", "C34_false", "C34_default_union", "C34_union", "C34_union_unknown"],
      "False for the masks of status, header and trusted_certificate, which name no context (C34_false); proved for all other names.")
claim("C35", "proved", ["C35_no_configs", "C35_combined_iff", "C35_no_include_left"], "")
claim("C36", "proved", ["C36_errors_status"], "")
claim("C37", "proved", ["C37_error_iff", "C37_error_names", "C37_terminates"],
      "For indices that are not negative, as all that Parse makes (a negative index is a crash, see C64_panic).")
claim("C38", "proved", ["C38_idempotent"], "")
claim("C50", "proved", ["C50_equal_iff", "C50_refl", "C50_symm", "C50_trans", "C50_fields"], "")
claim("C51", "partial", ["C51_decoded", "C51_equal", "C51_partial", "C51_payload", "C51_false"],
      "False for empty blocks (C51_false: `events {}` comes back as `events;`). Proved: exactly the empty lists become nil, everything else is kept; payloads with errors are not decoded.")
claim("C53", "proved", ["C53_error_iff", "C53_table", "C53_iteration_order"], "Given the definitions of each file; the extraction from C text is the subject of C59.")
claim("C54", "proved", ["C54_grammar", "C54_errors"], "")
claim("C55", "proved", ["C55_error_iff", "C55_table", "C55_undeclared"], "Given the definitions of each file; the extraction from C text is the subject of C59.")
claim("C56", "proved", ["C56_context_key"], "")
claim("C12", "partial", ["C12_false", "C12_partial"], "False of the code: the scanner's error is never consulted. Proved: a failing reader gives exactly the result of a file that ends there.")
claim("C17", "partial", ["C17_errors", "C17_errors_combined", "C17_status", "C17_combined_tags_false"],
      "With CombineConfigs the clause about the tags is false (the one config holds errors of several files); lines and errors still agree.")
claim("C18", "proved", ["C18_callback", "C18_calls", "C18_unset", "C18_nothing_else", "C18_two"], "")
claim("C22", "partial", ["C22_partial", "C22_false"], "Only exception: comments (named #) are kept with IgnoreDirectives [#] and ParseComments.")
claim("C23", "proved", ["C23_known", "C23_rejected_recorded", "C23_unknown_recorded"], "")
claim("C26", "proved", ["C26_checked", "C26_admitted", "C26_combined", "C26_standing", "C26_standing_ok"],
      "C26_standing has the context of the include directives, although the code may use another one (C29): the statement check does not tell these apart. Left open: the context of a file that is included only in files whose tree was given up after an error, for then the include directive is not in the payload.")
claim("C27", "proved", ["C27_decision", "C27_error_fields", "C27_params", "C27_marked", "C23_rejected_recorded"], "")
claim("C30", "proved", ["C30_payload", "C30_opens"], "")
claim("C32", "proved", ["C32_sorted", "C32_glob_order", "C32_includes"], "")
claim("C52", "proved", ["C52_text", "C52_text_cases", "C52_premature"], "")
claim("C13", "partial", ["C13_false", "C13_partial"], "False of the code. Proved: the exact condition under which Parse panics.")
claim("C14", "proved", ["C14_terminates", "C14_once", "C14_fuel"], "")
claim("C15", "proved", ["C15_includes", "C15_first"], "")
claim("C16", "proved", ["C16_cycle_iff", "C16_no_false_alarm", "C16_payload", "C16_map_order"], "")
claim("C20", "partial", ["C20_error", "C20_recorded", "C31_false_ignored", "C31_false_brace", "C31_false_external"],
      "Proved for the errors at the rounds the parser comes to. Error tokens it skips are not recorded: the C31_false theorems are witnesses, and C31_partial says when there are none.")
claim("C39", "proved", ["C39_combines", "C37_terminates"], "")
claim("C31", "partial", ["C31_partial", "C31_false_ignored", "C31_false_brace", "C31_false_external"],
      "False of the code: errors in ignored blocks, after a file that starts with a brace and of external lexers can be lost. Proved with these excluded.")
claim("C19", "proved", ["C19_iff", "C19_ok", "C19_first", "C19_err"], "")
claim("C21", "proved", ["C21_same", "C21_none"], "")
claim("C33", "proved", ["C33_combined", "C33_plain"], "")
claim("C29", "partial", ["C29_partial", "C29_shallow_partial", "C29_payload_partial", "C29_false", "C29_false_depth"],
      "C29_payload_partial states it of the payload alone: there is a context for every config such that its directives were accepted in it, and it is that of an include directive of an earlier config. False of the code: the stored context shares its array with later blocks (C29_false, depth 4). Proved: the depth is right and the outermost 0, 1, 2, 3, 5, 9, 17, 33 blocks are, so the whole context is right at such depths; what is missing is the rest of the blocks at other depths, where it is false: C29_false_depth for all of them up to 33; below that it depends on how Go grows slices.")
claim("C28", "partial", ["C28_partial", "C28_external", "C28_false_comment", "C28_false_brace", "C28_false_set", "C28_false_lua"],
      "Proved: the tokens of the file are the source of the tree; C28_external for any external lexers, with a condition on the tokens that the built-in lexer always meets. False for comments within a "
      "parameter of a map-like block (lost), for files that start with a brace or semicolon, and with the Lua lexer for an argument `;` of set_by_lua_block and for a semicolon after a block.")
claim("C45", "proved", ["C45_margin", "C45_lines", "C45_body", "C45_no_panic", "C45_negative"],
      "The text is that of the layout in Spec/Layout. Machine integers are unbounded in the model: products depth*Indent that overflow are not covered.")
claim("C46", "proved", ["C46_build", "C46_into", "C46_strings"], "For Indent >= 0; for a negative indent Build panics (C45_negative).")
claim("C47", "proved", ["C47", "C47_cwd"], "For Indent >= 0.")
claim("C48", "proved", ["C48_last", "C48_rendered", "C48_others", "C45_body"], "")
claim("C40", "partial", ["C40_iff", "C40_quoted_iff", "C40_unquoted_iff", "C40_partial", "C40_quoted_partial", "C40_unquoted_partial", "C40_text", "C40_false"],
      "False of the code (number signs, backslashes, characters that cannot be printed). C40_quoted_iff and C40_unquoted_iff say exactly which strings are read back; C40_partial has a simple class of them.")
claim("C43", "partial", ["C43_margins_partial", "C43_header_partial", "C43_false"],
      "Proved for trees whose names and arguments are written as one token each. False otherwise, e.g. for a string that ends in a backslash.")
claim("C44", "proved", ["C44_line", "C44_code_partial"],
      "C44_line for all trees whose comments have no block (as all parsed ones). C44_code_partial: the tokens other than comments are those of the tree without comments, for names and arguments written as one token each.")
claim("C41", "partial", ["C41_partial", "C41_false_if", "C41_false_comments"],
      "Proved for trees whose names and arguments are read back as one token each, whose comments are on lines of their own or after a directive, and whose directives pass the checks of the parser. False for an `if` whose first argument needs quotes and for two comments on one line.")
claim("C42", "partial", ["C42_partial", "C42_text_partial", "C42_false", "C42_false_text"],
      "Proved for files whose names and arguments are read back as one token each (see C40) and without two comments on one line; for the text moreover without line feeds in arguments and without comments on the line of a block. False otherwise: `a \"#b\";` and `a { b; } #c`.")
claim("C10", "partial", ["C10_none", "C10_unregistered", "C10_chunks", "C10_chunks_returns", "C10_last_wins", "C10_false_position", "C10_false_quoted", "C10_false_prefix", "C10_false_glued"],
      "Proved with the directive position of the code, for names followed by a blank. False of the code for directive position in the usual sense (arguments before a line feed or after a quoted name, longer names that begin with a registered one), and for names directly followed by another character. The text between external blocks has no carriage returns in C10_chunks and any in C10_chunks_returns.")
claim("C11", "proved", ["C11_lex", "C11_text", "C11_text_returns", "C11_block", "C11_set", "C11_only", "C11_unclosed", "C11_false_comment", "C11_false_escape"],
      "Quotes are read as the code reads them: from a quote to the next same quote. For the quotes of Lua (comments, escapes) it is false: C11_false_comment, C11_false_escape. C11_text_returns is C11_text for files with carriage returns.")
claim("C49", "partial", ["C49_block", "C49_set", "C49_file", "C49_false_arg", "C49_no_args"],
      "For code in the sense of C11; the argument of set_by_lua_block must have no blanks (C49_false_arg).")

claim("C57", "partial", ["C57_masks", "C57_accepted", "C57_names_partial", "C57_false"],
  "The masks part is proved for all names, statements and options. That the lexer handles all _by_lua_block names of the table is false for three names (C57_false, with parse failures) and proved for all others.")
claim("C58", "proved", ["C58_generated", "C58_all"],
  "All 16 configurations; the tables for R30 and R31 have no configuration (C58_all). The C definitions are given as name and mask text.")
claim("C59", "proved", ["C59_clean", "C59_definitions", "C59_masks", "C59_false_address", "C59_false_adjacent", "C59_false_line", "C59_false_close"],
      "The regular expressions are modelled with Go's leftmost-first matching. The C59_false theorems show that the conditions on the file are needed.")

claim("C60", "proved", ["C60_tokens", "C60_sorted", "C60_order", "C60_generate", "C60_unknown", "C60_read", "C60_only_c", "C60_file", "C60_false", "C60_false_comment"],
      "html/template is modelled as far as the template uses it. C60_false and C60_false_comment show that the conditions on names and comment are needed.")
claim("C61", "proved", ["C61_config", "C61_runs", "C61_bad_override"],
      "The splitting of the command line by the flag package and JSON decoding are not modelled.")
claim("C62", "partial", ["C62_partial", "C62_files_partial", "C62_if_masks", "C62_tables_partial", "C62_false_blank"],
      "Proved for trees whose names and arguments are read back as one token each (see C40), without two comments on one line, without builders, with masks of `if` that allow any number of arguments (as all tables of the repository have: C62_if_masks, C62_tables_partial), for configs built into different files, and for C62_partial without blanks at the end of a comment at the end of a file. False otherwise: C62_false_blank, C42_false.")
claim("C63", "proved", ["C63_same_payload", "C63_same_payload_without", "C63_default", "C63_plus", "C63_oss", "C63_false", "C63_false_lax"],
      "C63_false: the exceptions ssl and proxy_ssl_alpn are real; C63_false_lax: without ErrorOnUnknownDirectives the new tables must know no other names.")

claim("C64", "proved", ["C64_returns", "C64_no_deadlock", "C64_ok", "C64_error", "C64_panic", "C64_cycle", "C64_bounded", "C64_ends", "C64_no_crash", "C64_total"],
      "Model/Goroutines has the steps of every goroutine; channels are unbuffered. C64_error says that the error can be returned from every state; C64_total says that without circles and negative indices every schedule that goes on as long as it can returns it.")
claim("C65", "partial", ["C65_parse", "C64_no_crash", "C65_leak_iff", "C65_exact", "C65_sends_exists", "C65_sends_unique", "C65_false_leak", "C65_false_crash"],
      "Proved for the payloads that Parse combines; without negative indices no schedule crashes (C64_no_crash). False of payloads made by hand: a goroutine that forwards an error goes on, and then blocks forever or crashes the program at a negative index. "
      "C65_leak_iff and C65_exact say exactly which payloads leave a goroutine behind (those in which something is sent after the first error, Spec/Sends), independently of the schedule.")
claim("C66", "proved", ["C66_order", "C66_drain", "C66_no_deadlock", "C66_terminates", "C66_drain_completes", "C66_exclusive", "C66_leak_iff", "C66_lua", "C66_complete_run"],
      "Model/ChanExt has tokenize, the Lua lexer and any other external lexer as state machines over a shared scanner. Assumed of external lexers other than Lua: they do not use the scanner after closing their channel.")
claim("C67", "partial", ["C67_tree_partial", "C67_external", "C67_files_partial", "C67_disk_partial", "C67_external_files", "C67_false_arg"],
      "The whole way from tree to text to tree with Lua blocks, for every tree whose strings are read back (C40), without two comments on one line and accepted in its "
      "places; C67_external is the same for any external builders and lexers that fit together. C67_files_partial, C67_disk_partial and C67_external_files are "
      "the same for payloads of several files, as C62. Names that begin with the name of a Lua directive are excluded, and such arguments of a directive whose name needs quotes or "
      "which has a line feed in an argument: "
      "for them it is false of the code in general (C67_false_arg).")
claim("C68", "partial", ["C68_partial", "C68_lua_partial", "C68_external", "C68_false_twice", "C68_false_comments"],
      "Proved for payloads without errors in which every file stands in one context, at the depths at which C29 holds, for trees that can be read back (conditions of C41); C68_lua_partial and C68_external are the same with Lua blocks and with any external builders and lexers that fit together. "
      "False of the code for files included in two contexts (C68_false_twice) and for comments of different files with equal line numbers (C68_false_comments). Include patterns without matches stay include directives and need SingleFile.")
claim("C69", "partial", ["C69_result", "C69_closed", "C69_files", "C69_peak", "C69_write", "C69_into", "C69_false_write", "C69_false_into", "C92_files_panic", "C92_into_panic"],
      "Model/Handles is the parser with its opens, closes and deferred calls; C69_result: it has the results of Model/Parse. Proved for Parse; for BuildFiles and BuildInto with the exception stated: "
      "the file is not closed if writing to it fails (C69_false_write, C69_false_into). At a panic of margin BuildFiles leaves nothing open, BuildInto one file (C92_files_panic, C92_into_panic). C69_peak: all files of a configuration are open at once.")
claim("C70", "proved", ["C70_complete", "C70_sound", "C70_exact", "C70_exact_lexed", "C70_rejects", "C70_unique", "C70_false_start", "C70_false_end"],
      "An iff for files read alone, with the conditions under which it holds, for any external lexers and IgnoreDirectives; the code accepts files outside the grammar (two witnesses). Not covered: CombineConfigs; includes that are followed are in C71.")
claim("C71", "proved", ["C71_complete", "C71_sound", "C71_payload", "C71_exact", "C71_exact_lexed", "C71_accepted", "C71_combined", "C71_combined_sound", "C71_false_deep"],
      "An iff, with the conditions of C29 (depths of includes at which append allocates) and C70 (files start with a word, statements are ended). C71_false_deep: at other depths the code reads a file in a wrong context. "
      "Any external lexers and IgnoreDirectives. Not covered: a file system that changes during the parse.")
claim("C72", "proved", ["C72_tokens", "C72_lex", "C72_linear", "C72_false_combined"],
      "Linear bound without CombineConfigs; with it a family of files whose combination is exponentially large.")

claim("C73", "proved", ["C73_grammar", "C73_one", "C73_project", "C73_ignores", "C73_false_comments", "C73_false_converse"],
      "For one file read alone and for several files; the conditions are in the statement. A comment among the arguments of a directive that is left out is lost (C73_false_comments).")
claim("C74", "partial", ["C74_partial", "C74_conf", "C74_false", "C74_false_name"],
      "Missing: directives with a block that are rejected for another reason than a missing `;`; there it is false (C74_false). With ErrorOnUnknownDirectives it is also false for unknown directives whose name ends in ` is not terminated by \";` (C74_false_name).")
claim("C75", "proved", ["C75_tokens", "C75_concat", "C75_errors", "C75_false_line", "C75_external", "C75_lua", "C75_concat_external", "C75_concat_lua", "C75_errors_external", "C75_false_lua"],
      "For files read alone. C75_external and the theorems after it are for external lexers that end before the end of the first file; C75_lua: closed Lua blocks. C75_false_line: a first file without the last line feed; C75_false_lua: a first file with a Lua directive without a block.")
claim("C76", "proved", ["C76_result", "C76_same", "C76_progress", "C76_bounded", "C76_blocked", "C76_end", "C76_ends", "C76_leak_iff", "C76_clean", "C76_false_stop", "C76_false_block"],
      "One goroutine per file (external lexers as functions; their goroutines are in C66 and C88). The bound on the steps is for a Parse that ends sequentially (C14). C76_false_stop, C76_false_block: for every capacity there is a file whose lexer is left behind blocked forever.")
claim("C77", "proved", ["C77_inline", "C77_external", "C77_lua", "C77_false_map", "C77_false_twice", "C77_false_lua"],
      "The project is parsed with CombineConfigs, the text alone with SingleFile. C77_inline: without external lexers; C77_external, C77_lua: with them. C77_false_lua: an included file with a Lua directive without a block. C77_false_map, C77_false_twice: why include directives in blocks of parameters and files included in two contexts are excluded.")
claim("C78", "proved", ["C78_layout", "C78_lines", "C78_tokens", "C78_false_lexers"],
      "C78_lines: for any external lexers, if the tokens differ only in lines and in quotes around words that are not special. C78_layout: for texts, without external lexers. C78_false_lexers: with them the layout matters. What an error callback returns is not compared.")
claim("C79", "proved", ["C79_cause", "C79_stop", "C79_line", "C79_ordered", "C79_line_external", "C79_ordered_external"],
      "The converse of C20_recorded. C79_line, C79_ordered: without external lexers; C79_line_external, C79_ordered_external: with external lexers that send their tokens in order and on lines they read, as the Lua lexer does. All: if the errors of Glob are not ParseErrors; C79_ordered and C79_ordered_external: without CombineConfigs.")
claim("C80", "proved", ["C80_total", "C80_kept", "C80_broken", "C80_crash", "C80_crash_iff", "C80_payload", "C80_ok", "C80_stop", "C80_stop_last", "C80_recover", "C80_false_swallowed"],
      "For one file read alone, without CombineConfigs, with any tokens (also those of external lexers). C80_false_swallowed: what is kept need not be what the author meant.")
claim("C81", "proved", ["C81_done", "C81_cycle", "C81_noFile", "C81_crash", "C81_total", "C81_ok_iff", "C81_stop", "C81_combined", "C81_combined_none", "C81_false_pattern"],
      "For files included at the depths of C29 (elsewhere the code reads files in wrong contexts, C71_false_deep). C81_false_pattern: a name from a pattern that cannot be opened costs the whole payload.")
claim("C82", "proved", ["C82", "C82_single", "C82_file", "mentions_iff"],
      "Reachable is read off the tokens without regard to blocks, contexts and errors, so it may contain more files than Parse opens. mentions_iff: it can be computed.")
claim("C83", "proved", ["C83", "C83_alone", "C83_concat", "C83_false_line", "C83_false_concat"],
      "For directives that are not comments and are not written by an external builder. The own lines are those of Spec/Layout, which C45 shows to be what the code writes; C83_alone: they are the text of the directive alone.")
claim("C84", "proved", ["C84", "C84_files", "C84_false_builders", "C84_false_files"],
      "Model/BuildState: the options threaded through the calls. A session ends at a panic (negative indent). C84_false_*: what happens if the builders are changed after a call.")
claim("C85", "proved", ["C85", "C85_ready", "C85_indent", "C85_alone", "C85_false_builders", "C85_race"],
      "Model/BuildRace: the accesses to the shared options as steps, sequentially consistent, rendering as one step (it only reads). C85_alone ties it to Model/Build. C85_race: with an indent of 0 there is a data race, though the text is right under sequential consistency.")
claim("C86", "proved", ["C86", "C86_goroutines", "C86_race"],
      "Model/ParseShare: the field Glob as it is read and written by Parse; accesses sequentially consistent. The body of Parse is one step, which reads the options only; C86_race says when two goroutines write the options at the same time.")
claim("C87", "proved", ["C87", "C87_error", "C87_errors", "C87_empty", "C87_assign", "C87_false_args"],
      "Model/Heap: directives, arrays and comment strings as objects with addresses. Lists of errors are read as values. Goroutines are not in this model (C64: every schedule gives the sequential result). C87_false_args: what is shared.")
claim("C88", "proved", ["C88_result", "C88_same", "C88_progress", "C88_terminates", "C88_no_endless", "C88_bounded", "C88_ends", "C88_stuck", "C88_end", "C88_leak_iff", "C88_clean", "C88_false_lua"],
      "Model/ParseExt puts the machines of C66 into the program of C76; every step is invisible (finitely many in a row) or a step of C76. Termination is for a Parse that ends sequentially (C14). C88_false_lua: for every capacity there is a file with which tokenize and the Lua lexer are both left behind blocked forever.")
claim("C89", "proved", ["C89_moved", "C89_directory", "C89_false_absolute"],
      "Parse for two file systems related by an injective map of paths (Spec/Moved); C89_directory is the case of a tree under another root with relative includes; C89_false_absolute: an absolute include breaks it.")
claim("C90", "proved", ["C90_text", "C90_alike_iff", "C90_injective", "C90_false_injective"],
      "Spec/Escapes has the escapes of Go on its own (digits by value). C90_alike_iff is exact; C90_false_injective: an argument with a line feed and one with a backslash and an n give the same text.")
claim("C91", "proved", ["C91_words", "C91_same_words", "C91_same_words_external", "C91_false_if"],
      "From C28 (Source of Spec/Source) by induction; Spec/Words has the words of trees and of texts on its own. The conditions of C28 (a text starts with a word and ends its statements) are premises; trees with an if are excluded, and C91_false_if shows that they must be.")
claim("C92", "proved", ["C92_body", "C92_build", "C92_into", "C92_files", "C92_panic", "C92_into_panic", "C92_files_panic"],
      "Model/BuildPanic is Model/Build with the state at a panic; C92_build, C92_into and C92_files: it has the same results. C92_body is exact for every Indent. Builders are total functions: a panic of a builder is not covered.")
claim("C93", "proved", ["C93_order", "C93_permuted", "C93_no_errors", "C93_tables", "C93_repository", "C93_default", "C93_false"],
      "Spec/SourceOrder. What an error callback returned is left out of the comparison. C93_tables checks all masks of all tables in the kernel; it needs the context check. C93_false: without agreeing masks the tree after an error depends on the order.")
claim("C94", "proved", ["C94_first", "C94_no_errors", "C94_every", "C94_false"],
      "Spec/Alone: trees without Includes, errors about files that cannot be opened, faults that end the reading of a file. Premise: the order of a map is a permutation. The results of an error callback are not compared. When an include ended the reading of the main file, C94_first says just that. C94_false: the condition of C94_every is needed.")
claim("C95", "proved", ["C95_tokens", "C95_cut", "C95_where", "C95_stop", "C95_false"],
      "Spec/Cut: tokens and trees of a text that was cut off. Premises (CutOff): no external lexers, no IgnoreDirectives, the file is read alone, is accepted, starts with a word and has its statements ended by ';' or a block (without this the parser accepts more than the grammar, C70_false_start, C70_false_end). C95_false: IgnoreDirectives must be empty. As a failing reader is treated like one that ends (C12_partial), this also says what becomes of a file that cannot be read to its end.")
claim("C96", "proved", ["C96_edit", "C96_wrong", "C96_without", "C96_line"],
      "Spec/Edit: Exchanged (trees that differ at one place), contextAt (the context after some tokens). Premises (Edit): as for C95, and the text before, the old and the new statements end where a statement may begin (Boundary, Spec/Inline); the old and the new text are statements (Shape) without errors of the lexer. Trees are compared with their lines (laterList, Spec/Concat). C96_wrong: wrong statements as in Spec/Recovery (C74).")
claim("C97", "proved", ["C97_replace", "C97_edit", "C97_without", "C97_mistakes", "C97_wrong"],
      "Premises: the configuration is a project (IsProject, C71) with a context depth at which the context of an include is not overwritten (Fresh, C29, C71), in an environment that does not change during the parse (Followed); the new environment (Changed) has the same file names and differs in one file only; enough fuel. C97_edit and C97_without: no external lexers, no IgnoreDirectives; statements and places as for C96 (StmtText, Boundary); the context is contextAt applied to the context of the file. C97_mistakes and C97_wrong: errors collected (Collecting, C81); what is kept of a wrong file is KeepsIn (Spec/Works, C81), or Recover (Spec/Recovery, C74).")
claim("C98", "proved", ["C98_same", "C98_tokens", "C98_parse", "C98_lua", "C98_build", "C98_unused"],
      "External lexers are functions of the rest of the text and the line (as for C10); a name is absent (Lacks) if it does not stand in the text without carriage returns. C98_build and C98_unused: extBuilders of the options is nil, i.e. the options have not been used before (C84 for used ones).")
claim("C99", "proved", ["C99_same", "C99_values", "C99_false_brace", "C99_false_space", "C99_false_variable", "C99_false_dollar", "C99_false_return", "C99_false_backslash", "C99_more"],
      "The reader of nginx is a specification (Spec/Nginx), a transcription of ngx_conf_read_token, whose C source is not part of the repository; its limit of 4096 bytes per parameter is left out. Only the division into parameters and special characters is compared, not the lines, and not what nginx does with them afterwards. Without external lexers.")
claim("C100", "proved", ["C100_string", "C100_build", "C100_files", "C100_strings", "C100_false_backslash", "C100_false_escape", "C100_false_sharp", "C100_false_if"],
      "The reader of nginx is a specification, see C99. What nginx should read is in Spec/NginxTree; the conditions are NgxFine and NgxString. For names and arguments that satisfy them, any isPrint. Without builders and with options that have not been used before (C98 for builders that are not used, C84 for used options).")
claim("C101", "proved", ["C101_format", "C101_files", "C101_false_if", "C101_false_bare", "C101_false_map", "C101_false_sharp"],
      "Composed of C99 (lexer and nginx agree), C28 (the tokens are the source of the tree) and C100 (nginx reads what is built); that the file starts with a word and all statements are ended follows from nginx accepting it. nginx's reader is a specification, see C99. Values with backslashes are excluded by the conditions; for backslashes no witness that it fails is given.")
json.dump({"claims": C}, open(os.path.join(os.path.dirname(__file__), "..", "MANIFEST.json"), "w"), indent=1)
