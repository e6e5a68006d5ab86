{
 "claims": [
  {
   "property": "C01",
   "status": "proved",
   "theorems": [
    "Verif.C01_receives_in_order",
    "Verif.C01_schedule_independent",
    "Verif.C01_drain",
    "Verif.C01_drain_prefix"
   ],
   "note": ""
  },
  {
   "property": "C02",
   "status": "proved",
   "theorems": [
    "Verif.C02_no_deadlock",
    "Verif.C02_terminates",
    "Verif.C02_drain_completes",
    "Verif.C02_leak_iff",
    "Verif.C02_leaks"
   ],
   "note": ""
  },
  {
   "property": "C03",
   "status": "proved",
   "theorems": [
    "Verif.C03_tokens_of_items",
    "Verif.C03_every_text_is_items"
   ],
   "note": "Every text splits into items of Spec/Items.lean and lexing gives exactly their tokens."
  },
  {
   "property": "C04",
   "status": "proved",
   "theorems": [
    "Verif.C04_carriage_returns",
    "Verif.C04_same_text"
   ],
   "note": "Without external lexers, as the property says."
  },
  {
   "property": "C05",
   "status": "partial",
   "theorems": [
    "Verif.C05_lines_ordered",
    "Verif.C05_lines",
    "Verif.C05_lines_iff",
    "Verif.C05_lines_plain",
    "Verif.C05_lines_partial",
    "Verif.C05_false",
    "Verif.C05_external",
    "Verif.C05_lua",
    "Verif.C05_false_lua"
   ],
   "note": "Order and range for every text, and the exact line of every token (C05_lines). It is the line where the token starts exactly if no word starts with an escaped line feed and no special character directly follows a word with a line feed (C05_lines_iff); otherwise it is false (C05_false). With external lexers order and range hold, for error tokens with the line of the error, if the external lexers send their tokens in order and on lines they read (C05_external), as the Lua lexer does (C05_lua); the lines of error tokens themselves may be wrong (C05_false_lua)."
  },
  {
   "property": "C06",
   "status": "proved",
   "theorems": [
    "Verif.C06_no_error_iff",
    "Verif.C06_tokens_balanced"
   ],
   "note": ""
  },
  {
   "property": "C07",
   "status": "proved",
   "theorems": [
    "Verif.C07_errors"
   ],
   "note": ""
  },
  {
   "property": "C08",
   "status": "proved",
   "theorems": [
    "Verif.C08_token_shapes",
    "Verif.C08_not_empty",
    "Verif.C08_plain_word"
   ],
   "note": ""
  },
  {
   "property": "C09",
   "status": "proved",
   "theorems": [
    "Verif.C09_decodes",
    "Verif.C09_chunking",
    "Verif.C09_utf8"
   ],
   "note": ""
  },
  {
   "property": "C24",
   "status": "proved",
   "theorems": [
    "Verif.C24_accepts_iff",
    "Verif.C24_accepts_exactly",
    "Verif.C24_error_fields",
    "Verif.C24_error_names_directive"
   ],
   "note": "C24_accepts_iff is for block paths whose names contain no '>'; C24_accepts_exactly covers all names, with the path the code sees (C56)."
  },
  {
   "property": "C25",
   "status": "proved",
   "theorems": [
    "Verif.C25_skip_context_accepts_more",
    "Verif.C25_skip_args_accepts_more",
    "Verif.C25_skip_all",
    "Verif.C25_source_order",
    "Verif.C25_source_permutation",
    "Verif.C25_parse"
   ],
   "note": ""
  },
  {
   "property": "C34",
   "status": "partial",
   "theorems": [
    "Verif.C34_masks",
    "Verif.C34_contexts_partial",
    "Verif.C34_false",
    "Verif.C34_default_union",
    "Verif.C34_union",
    "Verif.C34_union_unknown"
   ],
   "note": "False for the masks of status, header and trusted_certificate, which name no context (C34_false); proved for all other names."
  },
  {
   "property": "C35",
   "status": "proved",
   "theorems": [
    "Verif.C35_no_configs",
    "Verif.C35_combined_iff",
    "Verif.C35_no_include_left"
   ],
   "note": ""
  },
  {
   "property": "C36",
   "status": "proved",
   "theorems": [
    "Verif.C36_errors_status"
   ],
   "note": ""
  },
  {
   "property": "C37",
   "status": "proved",
   "theorems": [
    "Verif.C37_error_iff",
    "Verif.C37_error_names",
    "Verif.C37_terminates"
   ],
   "note": "For indices that are not negative, as all that Parse makes (a negative index is a crash, see C64_panic)."
  },
  {
   "property": "C38",
   "status": "proved",
   "theorems": [
    "Verif.C38_idempotent"
   ],
   "note": ""
  },
  {
   "property": "C50",
   "status": "proved",
   "theorems": [
    "Verif.C50_equal_iff",
    "Verif.C50_refl",
    "Verif.C50_symm",
    "Verif.C50_trans",
    "Verif.C50_fields"
   ],
   "note": ""
  },
  {
   "property": "C51",
   "status": "partial",
   "theorems": [
    "Verif.C51_decoded",
    "Verif.C51_equal",
    "Verif.C51_partial",
    "Verif.C51_payload",
    "Verif.C51_false"
   ],
   "note": "False for empty blocks (C51_false: `events {}` comes back as `events;`). Proved: exactly the empty lists become nil, everything else is kept; payloads with errors are not decoded."
  },
  {
   "property": "C53",
   "status": "proved",
   "theorems": [
    "Verif.C53_error_iff",
    "Verif.C53_table",
    "Verif.C53_iteration_order"
   ],
   "note": "Given the definitions of each file; the extraction from C text is the subject of C59."
  },
  {
   "property": "C54",
   "status": "proved",
   "theorems": [
    "Verif.C54_grammar",
    "Verif.C54_errors"
   ],
   "note": ""
  },
  {
   "property": "C55",
   "status": "proved",
   "theorems": [
    "Verif.C55_error_iff",
    "Verif.C55_table",
    "Verif.C55_undeclared"
   ],
   "note": "Given the definitions of each file; the extraction from C text is the subject of C59."
  },
  {
   "property": "C56",
   "status": "proved",
   "theorems": [
    "Verif.C56_context_key"
   ],
   "note": ""
  },
  {
   "property": "C12",
   "status": "partial",
   "theorems": [
    "Verif.C12_false",
    "Verif.C12_partial"
   ],
   "note": "False of the code: the scanner's error is never consulted. Proved: a failing reader gives exactly the result of a file that ends there."
  },
  {
   "property": "C17",
   "status": "partial",
   "theorems": [
    "Verif.C17_errors",
    "Verif.C17_errors_combined",
    "Verif.C17_status",
    "Verif.C17_combined_tags_false"
   ],
   "note": "With CombineConfigs the clause about the tags is false (the one config holds errors of several files); lines and errors still agree."
  },
  {
   "property": "C18",
   "status": "proved",
   "theorems": [
    "Verif.C18_callback",
    "Verif.C18_calls",
    "Verif.C18_unset",
    "Verif.C18_nothing_else",
    "Verif.C18_two"
   ],
   "note": ""
  },
  {
   "property": "C22",
   "status": "partial",
   "theorems": [
    "Verif.C22_partial",
    "Verif.C22_false"
   ],
   "note": "Only exception: comments (named #) are kept with IgnoreDirectives [#] and ParseComments."
  },
  {
   "property": "C23",
   "status": "proved",
   "theorems": [
    "Verif.C23_known",
    "Verif.C23_rejected_recorded",
    "Verif.C23_unknown_recorded"
   ],
   "note": ""
  },
  {
   "property": "C26",
   "status": "proved",
   "theorems": [
    "Verif.C26_checked",
    "Verif.C26_admitted",
    "Verif.C26_combined",
    "Verif.C26_standing",
    "Verif.C26_standing_ok"
   ],
   "note": "C26_standing has the context of the include directives, although the code may use another one (C29): the statement check does not tell these apart. Left open: the context of a file that is included only in files whose tree was given up after an error, for then the include directive is not in the payload."
  },
  {
   "property": "C27",
   "status": "proved",
   "theorems": [
    "Verif.C27_decision",
    "Verif.C27_error_fields",
    "Verif.C27_params",
    "Verif.C27_marked",
    "Verif.C23_rejected_recorded"
   ],
   "note": ""
  },
  {
   "property": "C30",
   "status": "proved",
   "theorems": [
    "Verif.C30_payload",
    "Verif.C30_opens"
   ],
   "note": ""
  },
  {
   "property": "C32",
   "status": "proved",
   "theorems": [
    "Verif.C32_sorted",
    "Verif.C32_glob_order",
    "Verif.C32_includes"
   ],
   "note": ""
  },
  {
   "property": "C52",
   "status": "proved",
   "theorems": [
    "Verif.C52_text",
    "Verif.C52_text_cases",
    "Verif.C52_premature"
   ],
   "note": ""
  },
  {
   "property": "C13",
   "status": "partial",
   "theorems": [
    "Verif.C13_false",
    "Verif.C13_partial"
   ],
   "note": "False of the code. Proved: the exact condition under which Parse panics."
  },
  {
   "property": "C14",
   "status": "proved",
   "theorems": [
    "Verif.C14_terminates",
    "Verif.C14_once",
    "Verif.C14_fuel"
   ],
   "note": ""
  },
  {
   "property": "C15",
   "status": "proved",
   "theorems": [
    "Verif.C15_includes",
    "Verif.C15_first"
   ],
   "note": ""
  },
  {
   "property": "C16",
   "status": "proved",
   "theorems": [
    "Verif.C16_cycle_iff",
    "Verif.C16_no_false_alarm",
    "Verif.C16_payload",
    "Verif.C16_map_order"
   ],
   "note": ""
  },
  {
   "property": "C20",
   "status": "partial",
   "theorems": [
    "Verif.C20_error",
    "Verif.C20_recorded",
    "Verif.C31_false_ignored",
    "Verif.C31_false_brace",
    "Verif.C31_false_external"
   ],
   "note": "Proved for the errors at the rounds the parser comes to. Error tokens it skips are not recorded: the C31_false theorems are witnesses, and C31_partial says when there are none."
  },
  {
   "property": "C39",
   "status": "proved",
   "theorems": [
    "Verif.C39_combines",
    "Verif.C37_terminates"
   ],
   "note": ""
  },
  {
   "property": "C31",
   "status": "partial",
   "theorems": [
    "Verif.C31_partial",
    "Verif.C31_false_ignored",
    "Verif.C31_false_brace",
    "Verif.C31_false_external"
   ],
   "note": "False of the code: errors in ignored blocks, after a file that starts with a brace and of external lexers can be lost. Proved with these excluded."
  },
  {
   "property": "C19",
   "status": "proved",
   "theorems": [
    "Verif.C19_iff",
    "Verif.C19_ok",
    "Verif.C19_first",
    "Verif.C19_err"
   ],
   "note": ""
  },
  {
   "property": "C21",
   "status": "proved",
   "theorems": [
    "Verif.C21_same",
    "Verif.C21_none"
   ],
   "note": ""
  },
  {
   "property": "C33",
   "status": "proved",
   "theorems": [
    "Verif.C33_combined",
    "Verif.C33_plain"
   ],
   "note": ""
  },
  {
   "property": "C29",
   "status": "partial",
   "theorems": [
    "Verif.C29_partial",
    "Verif.C29_shallow_partial",
    "Verif.C29_payload_partial",
    "Verif.C29_false",
    "Verif.C29_false_depth"
   ],
   "note": "C29_payload_partial states it of the payload alone: there is a context for every config such that its directives were accepted in it, and it is that of an include directive of an earlier config. False of the code: the stored context shares its array with later blocks (C29_false, depth 4). Proved: the depth is right and the outermost 0, 1, 2, 3, 5, 9, 17, 33 blocks are, so the whole context is right at such depths; what is missing is the rest of the blocks at other depths, where it is false: C29_false_depth for all of them up to 33; below that it depends on how Go grows slices."
  },
  {
   "property": "C28",
   "status": "partial",
   "theorems": [
    "Verif.C28_partial",
    "Verif.C28_external",
    "Verif.C28_false_comment",
    "Verif.C28_false_brace",
    "Verif.C28_false_set",
    "Verif.C28_false_lua"
   ],
   "note": "Proved: the tokens of the file are the source of the tree; C28_external for any external lexers, with a condition on the tokens that the built-in lexer always meets. False for comments within a parameter of a map-like block (lost), for files that start with a brace or semicolon, and with the Lua lexer for an argument `;` of set_by_lua_block and for a semicolon after a block."
  },
  {
   "property": "C45",
   "status": "proved",
   "theorems": [
    "Verif.C45_margin",
    "Verif.C45_lines",
    "Verif.C45_body",
    "Verif.C45_no_panic",
    "Verif.C45_negative"
   ],
   "note": "The text is that of the layout in Spec/Layout. Machine integers are unbounded in the model: products depth*Indent that overflow are not covered."
  },
  {
   "property": "C46",
   "status": "proved",
   "theorems": [
    "Verif.C46_build",
    "Verif.C46_into",
    "Verif.C46_strings"
   ],
   "note": "For Indent >= 0; for a negative indent Build panics (C45_negative)."
  },
  {
   "property": "C47",
   "status": "proved",
   "theorems": [
    "Verif.C47",
    "Verif.C47_cwd"
   ],
   "note": "For Indent >= 0."
  },
  {
   "property": "C48",
   "status": "proved",
   "theorems": [
    "Verif.C48_last",
    "Verif.C48_rendered",
    "Verif.C48_others",
    "Verif.C45_body"
   ],
   "note": ""
  },
  {
   "property": "C40",
   "status": "partial",
   "theorems": [
    "Verif.C40_iff",
    "Verif.C40_quoted_iff",
    "Verif.C40_unquoted_iff",
    "Verif.C40_partial",
    "Verif.C40_quoted_partial",
    "Verif.C40_unquoted_partial",
    "Verif.C40_text",
    "Verif.C40_false"
   ],
   "note": "False of the code (number signs, backslashes, characters that cannot be printed). C40_quoted_iff and C40_unquoted_iff say exactly which strings are read back; C40_partial has a simple class of them."
  },
  {
   "property": "C43",
   "status": "partial",
   "theorems": [
    "Verif.C43_margins_partial",
    "Verif.C43_header_partial",
    "Verif.C43_false"
   ],
   "note": "Proved for trees whose names and arguments are written as one token each. False otherwise, e.g. for a string that ends in a backslash."
  },
  {
   "property": "C44",
   "status": "proved",
   "theorems": [
    "Verif.C44_line",
    "Verif.C44_code_partial"
   ],
   "note": "C44_line for all trees whose comments have no block (as all parsed ones). C44_code_partial: the tokens other than comments are those of the tree without comments, for names and arguments written as one token each."
  },
  {
   "property": "C41",
   "status": "partial",
   "theorems": [
    "Verif.C41_partial",
    "Verif.C41_false_if",
    "Verif.C41_false_comments"
   ],
   "note": "Proved for trees whose names and arguments are read back as one token each, whose comments are on lines of their own or after a directive, and whose directives pass the checks of the parser. False for an `if` whose first argument needs quotes and for two comments on one line."
  },
  {
   "property": "C42",
   "status": "partial",
   "theorems": [
    "Verif.C42_partial",
    "Verif.C42_text_partial",
    "Verif.C42_false",
    "Verif.C42_false_text"
   ],
   "note": "Proved for files whose names and arguments are read back as one token each (see C40) and without two comments on one line; for the text moreover without line feeds in arguments and without comments on the line of a block. False otherwise: `a \"#b\";` and `a { b; } #c`."
  },
  {
   "property": "C10",
   "status": "partial",
   "theorems": [
    "Verif.C10_none",
    "Verif.C10_unregistered",
    "Verif.C10_chunks",
    "Verif.C10_chunks_returns",
    "Verif.C10_last_wins",
    "Verif.C10_false_position",
    "Verif.C10_false_quoted",
    "Verif.C10_false_prefix",
    "Verif.C10_false_glued"
   ],
   "note": "Proved with the directive position of the code, for names followed by a blank. False of the code for directive position in the usual sense (arguments before a line feed or after a quoted name, longer names that begin with a registered one), and for names directly followed by another character. The text between external blocks has no carriage returns in C10_chunks and any in C10_chunks_returns."
  },
  {
   "property": "C11",
   "status": "proved",
   "theorems": [
    "Verif.C11_lex",
    "Verif.C11_text",
    "Verif.C11_text_returns",
    "Verif.C11_block",
    "Verif.C11_set",
    "Verif.C11_only",
    "Verif.C11_unclosed",
    "Verif.C11_false_comment",
    "Verif.C11_false_escape"
   ],
   "note": "Quotes are read as the code reads them: from a quote to the next same quote. For the quotes of Lua (comments, escapes) it is false: C11_false_comment, C11_false_escape. C11_text_returns is C11_text for files with carriage returns."
  },
  {
   "property": "C49",
   "status": "partial",
   "theorems": [
    "Verif.C49_block",
    "Verif.C49_set",
    "Verif.C49_file",
    "Verif.C49_false_arg",
    "Verif.C49_no_args"
   ],
   "note": "For code in the sense of C11; the argument of set_by_lua_block must have no blanks (C49_false_arg)."
  },
  {
   "property": "C57",
   "status": "partial",
   "theorems": [
    "Verif.C57_masks",
    "Verif.C57_accepted",
    "Verif.C57_names_partial",
    "Verif.C57_false"
   ],
   "note": "The masks part is proved for all names, statements and options. That the lexer handles all _by_lua_block names of the table is false for three names (C57_false, with parse failures) and proved for all others."
  },
  {
   "property": "C58",
   "status": "proved",
   "theorems": [
    "Verif.C58_generated",
    "Verif.C58_all"
   ],
   "note": "All 16 configurations; the tables for R30 and R31 have no configuration (C58_all). The C definitions are given as name and mask text."
  },
  {
   "property": "C59",
   "status": "proved",
   "theorems": [
    "Verif.C59_clean",
    "Verif.C59_definitions",
    "Verif.C59_masks",
    "Verif.C59_false_address",
    "Verif.C59_false_adjacent",
    "Verif.C59_false_line",
    "Verif.C59_false_close"
   ],
   "note": "The regular expressions are modelled with Go's leftmost-first matching. The C59_false theorems show that the conditions on the file are needed."
  },
  {
   "property": "C60",
   "status": "proved",
   "theorems": [
    "Verif.C60_tokens",
    "Verif.C60_sorted",
    "Verif.C60_order",
    "Verif.C60_generate",
    "Verif.C60_unknown",
    "Verif.C60_read",
    "Verif.C60_only_c",
    "Verif.C60_file",
    "Verif.C60_false",
    "Verif.C60_false_comment"
   ],
   "note": "html/template is modelled as far as the template uses it. C60_false and C60_false_comment show that the conditions on names and comment are needed."
  },
  {
   "property": "C61",
   "status": "proved",
   "theorems": [
    "Verif.C61_config",
    "Verif.C61_runs",
    "Verif.C61_bad_override"
   ],
   "note": "The splitting of the command line by the flag package and JSON decoding are not modelled."
  },
  {
   "property": "C62",
   "status": "partial",
   "theorems": [
    "Verif.C62_partial",
    "Verif.C62_files_partial",
    "Verif.C62_if_masks",
    "Verif.C62_tables_partial",
    "Verif.C62_false_blank"
   ],
   "note": "Proved for trees whose names and arguments are read back as one token each (see C40), without two comments on one line, without builders, with masks of `if` that allow any number of arguments (as all tables of the repository have: C62_if_masks, C62_tables_partial), for configs built into different files, and for C62_partial without blanks at the end of a comment at the end of a file. False otherwise: C62_false_blank, C42_false."
  },
  {
   "property": "C63",
   "status": "proved",
   "theorems": [
    "Verif.C63_same_payload",
    "Verif.C63_same_payload_without",
    "Verif.C63_default",
    "Verif.C63_plus",
    "Verif.C63_oss",
    "Verif.C63_false",
    "Verif.C63_false_lax"
   ],
   "note": "C63_false: the exceptions ssl and proxy_ssl_alpn are real; C63_false_lax: without ErrorOnUnknownDirectives the new tables must know no other names."
  },
  {
   "property": "C64",
   "status": "proved",
   "theorems": [
    "Verif.C64_returns",
    "Verif.C64_no_deadlock",
    "Verif.C64_ok",
    "Verif.C64_error",
    "Verif.C64_panic",
    "Verif.C64_cycle",
    "Verif.C64_bounded",
    "Verif.C64_ends",
    "Verif.C64_no_crash",
    "Verif.C64_total"
   ],
   "note": "Model/Goroutines has the steps of every goroutine; channels are unbuffered. C64_error says that the error can be returned from every state; C64_total says that without circles and negative indices every schedule that goes on as long as it can returns it."
  },
  {
   "property": "C65",
   "status": "partial",
   "theorems": [
    "Verif.C65_parse",
    "Verif.C64_no_crash",
    "Verif.C65_leak_iff",
    "Verif.C65_exact",
    "Verif.C65_sends_exists",
    "Verif.C65_sends_unique",
    "Verif.C65_false_leak",
    "Verif.C65_false_crash"
   ],
   "note": "Proved for the payloads that Parse combines; without negative indices no schedule crashes (C64_no_crash). False of payloads made by hand: a goroutine that forwards an error goes on, and then blocks forever or crashes the program at a negative index. C65_leak_iff and C65_exact say exactly which payloads leave a goroutine behind (those in which something is sent after the first error, Spec/Sends), independently of the schedule."
  },
  {
   "property": "C66",
   "status": "proved",
   "theorems": [
    "Verif.C66_order",
    "Verif.C66_drain",
    "Verif.C66_no_deadlock",
    "Verif.C66_terminates",
    "Verif.C66_drain_completes",
    "Verif.C66_exclusive",
    "Verif.C66_leak_iff",
    "Verif.C66_lua",
    "Verif.C66_complete_run"
   ],
   "note": "Model/ChanExt has tokenize, the Lua lexer and any other external lexer as state machines over a shared scanner. Assumed of external lexers other than Lua: they do not use the scanner after closing their channel."
  },
  {
   "property": "C67",
   "status": "partial",
   "theorems": [
    "Verif.C67_tree_partial",
    "Verif.C67_external",
    "Verif.C67_files_partial",
    "Verif.C67_disk_partial",
    "Verif.C67_external_files",
    "Verif.C67_false_arg"
   ],
   "note": "The whole way from tree to text to tree with Lua blocks, for every tree whose strings are read back (C40), without two comments on one line and accepted in its places; C67_external is the same for any external builders and lexers that fit together. C67_files_partial, C67_disk_partial and C67_external_files are the same for payloads of several files, as C62. Names that begin with the name of a Lua directive are excluded, and such arguments of a directive whose name needs quotes or which has a line feed in an argument: for them it is false of the code in general (C67_false_arg)."
  },
  {
   "property": "C68",
   "status": "partial",
   "theorems": [
    "Verif.C68_partial",
    "Verif.C68_lua_partial",
    "Verif.C68_external",
    "Verif.C68_false_twice",
    "Verif.C68_false_comments"
   ],
   "note": "Proved for payloads without errors in which every file stands in one context, at the depths at which C29 holds, for trees that can be read back (conditions of C41); C68_lua_partial and C68_external are the same with Lua blocks and with any external builders and lexers that fit together. False of the code for files included in two contexts (C68_false_twice) and for comments of different files with equal line numbers (C68_false_comments). Include patterns without matches stay include directives and need SingleFile."
  },
  {
   "property": "C69",
   "status": "partial",
   "theorems": [
    "Verif.C69_result",
    "Verif.C69_closed",
    "Verif.C69_files",
    "Verif.C69_peak",
    "Verif.C69_write",
    "Verif.C69_into",
    "Verif.C69_false_write",
    "Verif.C69_false_into",
    "Verif.C92_files_panic",
    "Verif.C92_into_panic"
   ],
   "note": "Model/Handles is the parser with its opens, closes and deferred calls; C69_result: it has the results of Model/Parse. Proved for Parse; for BuildFiles and BuildInto with the exception stated: the file is not closed if writing to it fails (C69_false_write, C69_false_into). At a panic of margin BuildFiles leaves nothing open, BuildInto one file (C92_files_panic, C92_into_panic). C69_peak: all files of a configuration are open at once."
  },
  {
   "property": "C70",
   "status": "proved",
   "theorems": [
    "Verif.C70_complete",
    "Verif.C70_sound",
    "Verif.C70_exact",
    "Verif.C70_exact_lexed",
    "Verif.C70_rejects",
    "Verif.C70_unique",
    "Verif.C70_false_start",
    "Verif.C70_false_end"
   ],
   "note": "An iff for files read alone, with the conditions under which it holds, for any external lexers and IgnoreDirectives; the code accepts files outside the grammar (two witnesses). Not covered: CombineConfigs; includes that are followed are in C71."
  },
  {
   "property": "C71",
   "status": "proved",
   "theorems": [
    "Verif.C71_complete",
    "Verif.C71_sound",
    "Verif.C71_payload",
    "Verif.C71_exact",
    "Verif.C71_exact_lexed",
    "Verif.C71_accepted",
    "Verif.C71_combined",
    "Verif.C71_combined_sound",
    "Verif.C71_false_deep"
   ],
   "note": "An iff, with the conditions of C29 (depths of includes at which append allocates) and C70 (files start with a word, statements are ended). C71_false_deep: at other depths the code reads a file in a wrong context. Any external lexers and IgnoreDirectives. Not covered: a file system that changes during the parse."
  },
  {
   "property": "C72",
   "status": "proved",
   "theorems": [
    "Verif.C72_tokens",
    "Verif.C72_lex",
    "Verif.C72_linear",
    "Verif.C72_false_combined"
   ],
   "note": "Linear bound without CombineConfigs; with it a family of files whose combination is exponentially large."
  },
  {
   "property": "C73",
   "status": "proved",
   "theorems": [
    "Verif.C73_grammar",
    "Verif.C73_one",
    "Verif.C73_project",
    "Verif.C73_ignores",
    "Verif.C73_false_comments",
    "Verif.C73_false_converse"
   ],
   "note": "For one file read alone and for several files; the conditions are in the statement. A comment among the arguments of a directive that is left out is lost (C73_false_comments)."
  },
  {
   "property": "C74",
   "status": "partial",
   "theorems": [
    "Verif.C74_partial",
    "Verif.C74_conf",
    "Verif.C74_false",
    "Verif.C74_false_name"
   ],
   "note": "Missing: directives with a block that are rejected for another reason than a missing `;`; there it is false (C74_false). With ErrorOnUnknownDirectives it is also false for unknown directives whose name ends in ` is not terminated by \";` (C74_false_name)."
  },
  {
   "property": "C75",
   "status": "proved",
   "theorems": [
    "Verif.C75_tokens",
    "Verif.C75_concat",
    "Verif.C75_errors",
    "Verif.C75_false_line",
    "Verif.C75_external",
    "Verif.C75_lua",
    "Verif.C75_concat_external",
    "Verif.C75_concat_lua",
    "Verif.C75_errors_external",
    "Verif.C75_false_lua"
   ],
   "note": "For files read alone. C75_external and the theorems after it are for external lexers that end before the end of the first file; C75_lua: closed Lua blocks. C75_false_line: a first file without the last line feed; C75_false_lua: a first file with a Lua directive without a block."
  },
  {
   "property": "C76",
   "status": "proved",
   "theorems": [
    "Verif.C76_result",
    "Verif.C76_same",
    "Verif.C76_progress",
    "Verif.C76_bounded",
    "Verif.C76_blocked",
    "Verif.C76_end",
    "Verif.C76_ends",
    "Verif.C76_leak_iff",
    "Verif.C76_clean",
    "Verif.C76_false_stop",
    "Verif.C76_false_block"
   ],
   "note": "One goroutine per file (external lexers as functions; their goroutines are in C66 and C88). The bound on the steps is for a Parse that ends sequentially (C14). C76_false_stop, C76_false_block: for every capacity there is a file whose lexer is left behind blocked forever."
  },
  {
   "property": "C77",
   "status": "proved",
   "theorems": [
    "Verif.C77_inline",
    "Verif.C77_external",
    "Verif.C77_lua",
    "Verif.C77_false_map",
    "Verif.C77_false_twice",
    "Verif.C77_false_lua"
   ],
   "note": "The project is parsed with CombineConfigs, the text alone with SingleFile. C77_inline: without external lexers; C77_external, C77_lua: with them. C77_false_lua: an included file with a Lua directive without a block. C77_false_map, C77_false_twice: why include directives in blocks of parameters and files included in two contexts are excluded."
  },
  {
   "property": "C78",
   "status": "proved",
   "theorems": [
    "Verif.C78_layout",
    "Verif.C78_lines",
    "Verif.C78_tokens",
    "Verif.C78_false_lexers"
   ],
   "note": "C78_lines: for any external lexers, if the tokens differ only in lines and in quotes around words that are not special. C78_layout: for texts, without external lexers. C78_false_lexers: with them the layout matters. What an error callback returns is not compared."
  },
  {
   "property": "C79",
   "status": "proved",
   "theorems": [
    "Verif.C79_cause",
    "Verif.C79_stop",
    "Verif.C79_line",
    "Verif.C79_ordered",
    "Verif.C79_line_external",
    "Verif.C79_ordered_external"
   ],
   "note": "The converse of C20_recorded. C79_line, C79_ordered: without external lexers; C79_line_external, C79_ordered_external: with external lexers that send their tokens in order and on lines they read, as the Lua lexer does. All: if the errors of Glob are not ParseErrors; C79_ordered and C79_ordered_external: without CombineConfigs."
  },
  {
   "property": "C80",
   "status": "proved",
   "theorems": [
    "Verif.C80_total",
    "Verif.C80_kept",
    "Verif.C80_broken",
    "Verif.C80_crash",
    "Verif.C80_crash_iff",
    "Verif.C80_payload",
    "Verif.C80_ok",
    "Verif.C80_stop",
    "Verif.C80_stop_last",
    "Verif.C80_recover",
    "Verif.C80_false_swallowed"
   ],
   "note": "For one file read alone, without CombineConfigs, with any tokens (also those of external lexers). C80_false_swallowed: what is kept need not be what the author meant."
  },
  {
   "property": "C81",
   "status": "proved",
   "theorems": [
    "Verif.C81_done",
    "Verif.C81_cycle",
    "Verif.C81_noFile",
    "Verif.C81_crash",
    "Verif.C81_total",
    "Verif.C81_ok_iff",
    "Verif.C81_stop",
    "Verif.C81_combined",
    "Verif.C81_combined_none",
    "Verif.C81_false_pattern"
   ],
   "note": "For files included at the depths of C29 (elsewhere the code reads files in wrong contexts, C71_false_deep). C81_false_pattern: a name from a pattern that cannot be opened costs the whole payload."
  },
  {
   "property": "C82",
   "status": "proved",
   "theorems": [
    "Verif.C82",
    "Verif.C82_single",
    "Verif.C82_file",
    "Verif.mentions_iff"
   ],
   "note": "Reachable is read off the tokens without regard to blocks, contexts and errors, so it may contain more files than Parse opens. mentions_iff: it can be computed."
  },
  {
   "property": "C83",
   "status": "proved",
   "theorems": [
    "Verif.C83",
    "Verif.C83_alone",
    "Verif.C83_concat",
    "Verif.C83_false_line",
    "Verif.C83_false_concat"
   ],
   "note": "For directives that are not comments and are not written by an external builder. The own lines are those of Spec/Layout, which C45 shows to be what the code writes; C83_alone: they are the text of the directive alone."
  },
  {
   "property": "C84",
   "status": "proved",
   "theorems": [
    "Verif.C84",
    "Verif.C84_files",
    "Verif.C84_false_builders",
    "Verif.C84_false_files"
   ],
   "note": "Model/BuildState: the options threaded through the calls. A session ends at a panic (negative indent). C84_false_*: what happens if the builders are changed after a call."
  },
  {
   "property": "C85",
   "status": "proved",
   "theorems": [
    "Verif.C85",
    "Verif.C85_ready",
    "Verif.C85_indent",
    "Verif.C85_alone",
    "Verif.C85_false_builders",
    "Verif.C85_race"
   ],
   "note": "Model/BuildRace: the accesses to the shared options as steps, sequentially consistent, rendering as one step (it only reads). C85_alone ties it to Model/Build. C85_race: with an indent of 0 there is a data race, though the text is right under sequential consistency."
  },
  {
   "property": "C86",
   "status": "proved",
   "theorems": [
    "Verif.C86",
    "Verif.C86_goroutines",
    "Verif.C86_race"
   ],
   "note": "Model/ParseShare: the field Glob as it is read and written by Parse; accesses sequentially consistent. The body of Parse is one step, which reads the options only; C86_race says when two goroutines write the options at the same time."
  },
  {
   "property": "C87",
   "status": "proved",
   "theorems": [
    "Verif.C87",
    "Verif.C87_error",
    "Verif.C87_errors",
    "Verif.C87_empty",
    "Verif.C87_assign",
    "Verif.C87_false_args"
   ],
   "note": "Model/Heap: directives, arrays and comment strings as objects with addresses. Lists of errors are read as values. Goroutines are not in this model (C64: every schedule gives the sequential result). C87_false_args: what is shared."
  },
  {
   "property": "C88",
   "status": "proved",
   "theorems": [
    "Verif.C88_result",
    "Verif.C88_same",
    "Verif.C88_progress",
    "Verif.C88_terminates",
    "Verif.C88_no_endless",
    "Verif.C88_bounded",
    "Verif.C88_ends",
    "Verif.C88_stuck",
    "Verif.C88_end",
    "Verif.C88_leak_iff",
    "Verif.C88_clean",
    "Verif.C88_false_lua"
   ],
   "note": "Model/ParseExt puts the machines of C66 into the program of C76; every step is invisible (finitely many in a row) or a step of C76. Termination is for a Parse that ends sequentially (C14). C88_false_lua: for every capacity there is a file with which tokenize and the Lua lexer are both left behind blocked forever."
  },
  {
   "property": "C89",
   "status": "proved",
   "theorems": [
    "Verif.C89_moved",
    "Verif.C89_directory",
    "Verif.C89_false_absolute"
   ],
   "note": "Parse for two file systems related by an injective map of paths (Spec/Moved); C89_directory is the case of a tree under another root with relative includes; C89_false_absolute: an absolute include breaks it."
  },
  {
   "property": "C90",
   "status": "proved",
   "theorems": [
    "Verif.C90_text",
    "Verif.C90_alike_iff",
    "Verif.C90_injective",
    "Verif.C90_false_injective"
   ],
   "note": "Spec/Escapes has the escapes of Go on its own (digits by value). C90_alike_iff is exact; C90_false_injective: an argument with a line feed and one with a backslash and an n give the same text."
  },
  {
   "property": "C91",
   "status": "proved",
   "theorems": [
    "Verif.C91_words",
    "Verif.C91_same_words",
    "Verif.C91_same_words_external",
    "Verif.C91_false_if"
   ],
   "note": "From C28 (Source of Spec/Source) by induction; Spec/Words has the words of trees and of texts on its own. The conditions of C28 (a text starts with a word and ends its statements) are premises; trees with an if are excluded, and C91_false_if shows that they must be."
  },
  {
   "property": "C92",
   "status": "proved",
   "theorems": [
    "Verif.C92_body",
    "Verif.C92_build",
    "Verif.C92_into",
    "Verif.C92_files",
    "Verif.C92_panic",
    "Verif.C92_into_panic",
    "Verif.C92_files_panic"
   ],
   "note": "Model/BuildPanic is Model/Build with the state at a panic; C92_build, C92_into and C92_files: it has the same results. C92_body is exact for every Indent. Builders are total functions: a panic of a builder is not covered."
  },
  {
   "property": "C93",
   "status": "proved",
   "theorems": [
    "Verif.C93_order",
    "Verif.C93_permuted",
    "Verif.C93_no_errors",
    "Verif.C93_tables",
    "Verif.C93_repository",
    "Verif.C93_default",
    "Verif.C93_false"
   ],
   "note": "Spec/SourceOrder. What an error callback returned is left out of the comparison. C93_tables checks all masks of all tables in the kernel; it needs the context check. C93_false: without agreeing masks the tree after an error depends on the order."
  },
  {
   "property": "C94",
   "status": "proved",
   "theorems": [
    "Verif.C94_first",
    "Verif.C94_no_errors",
    "Verif.C94_every",
    "Verif.C94_false"
   ],
   "note": "Spec/Alone: trees without Includes, errors about files that cannot be opened, faults that end the reading of a file. Premise: the order of a map is a permutation. The results of an error callback are not compared. When an include ended the reading of the main file, C94_first says just that. C94_false: the condition of C94_every is needed."
  },
  {
   "property": "C95",
   "status": "proved",
   "theorems": [
    "Verif.C95_tokens",
    "Verif.C95_cut",
    "Verif.C95_where",
    "Verif.C95_stop",
    "Verif.C95_false"
   ],
   "note": "Spec/Cut: tokens and trees of a text that was cut off. Premises (CutOff): no external lexers, no IgnoreDirectives, the file is read alone, is accepted, starts with a word and has its statements ended by ';' or a block (without this the parser accepts more than the grammar, C70_false_start, C70_false_end). C95_false: IgnoreDirectives must be empty. As a failing reader is treated like one that ends (C12_partial), this also says what becomes of a file that cannot be read to its end."
  },
  {
   "property": "C96",
   "status": "proved",
   "theorems": [
    "Verif.C96_edit",
    "Verif.C96_wrong",
    "Verif.C96_without",
    "Verif.C96_line"
   ],
   "note": "Spec/Edit: Exchanged (trees that differ at one place), contextAt (the context after some tokens). Premises (Edit): as for C95, and the text before, the old and the new statements end where a statement may begin (Boundary, Spec/Inline); the old and the new text are statements (Shape) without errors of the lexer. Trees are compared with their lines (laterList, Spec/Concat). C96_wrong: wrong statements as in Spec/Recovery (C74)."
  },
  {
   "property": "C97",
   "status": "proved",
   "theorems": [
    "Verif.C97_replace",
    "Verif.C97_edit",
    "Verif.C97_without",
    "Verif.C97_mistakes",
    "Verif.C97_wrong"
   ],
   "note": "Premises: the configuration is a project (IsProject, C71) with a context depth at which the context of an include is not overwritten (Fresh, C29, C71), in an environment that does not change during the parse (Followed); the new environment (Changed) has the same file names and differs in one file only; enough fuel. C97_edit and C97_without: no external lexers, no IgnoreDirectives; statements and places as for C96 (StmtText, Boundary); the context is contextAt applied to the context of the file. C97_mistakes and C97_wrong: errors collected (Collecting, C81); what is kept of a wrong file is KeepsIn (Spec/Works, C81), or Recover (Spec/Recovery, C74)."
  },
  {
   "property": "C98",
   "status": "proved",
   "theorems": [
    "Verif.C98_same",
    "Verif.C98_tokens",
    "Verif.C98_parse",
    "Verif.C98_lua",
    "Verif.C98_build",
    "Verif.C98_unused"
   ],
   "note": "External lexers are functions of the rest of the text and the line (as for C10); a name is absent (Lacks) if it does not stand in the text without carriage returns. C98_build and C98_unused: extBuilders of the options is nil, i.e. the options have not been used before (C84 for used ones)."
  },
  {
   "property": "C99",
   "status": "proved",
   "theorems": [
    "Verif.C99_same",
    "Verif.C99_values",
    "Verif.C99_false_brace",
    "Verif.C99_false_space",
    "Verif.C99_false_variable",
    "Verif.C99_false_dollar",
    "Verif.C99_false_return",
    "Verif.C99_false_backslash",
    "Verif.C99_more"
   ],
   "note": "The reader of nginx is a specification (Spec/Nginx), a transcription of ngx_conf_read_token, whose C source is not part of the repository; its limit of 4096 bytes per parameter is left out. Only the division into parameters and special characters is compared, not the lines, and not what nginx does with them afterwards. Without external lexers."
  },
  {
   "property": "C100",
   "status": "proved",
   "theorems": [
    "Verif.C100_string",
    "Verif.C100_build",
    "Verif.C100_files",
    "Verif.C100_strings",
    "Verif.C100_false_backslash",
    "Verif.C100_false_escape",
    "Verif.C100_false_sharp",
    "Verif.C100_false_if"
   ],
   "note": "The reader of nginx is a specification, see C99. What nginx should read is in Spec/NginxTree; the conditions are NgxFine and NgxString. For names and arguments that satisfy them, any isPrint. Without builders and with options that have not been used before (C98 for builders that are not used, C84 for used options)."
  },
  {
   "property": "C101",
   "status": "proved",
   "theorems": [
    "Verif.C101_format",
    "Verif.C101_files",
    "Verif.C101_false_if",
    "Verif.C101_false_bare",
    "Verif.C101_false_map",
    "Verif.C101_false_sharp"
   ],
   "note": "Composed of C99 (lexer and nginx agree), C28 (the tokens are the source of the tree) and C100 (nginx reads what is built); that the file starts with a word and all statements are ended follows from nginx accepting it. nginx's reader is a specification, see C99. Values with backslashes are excluded by the conditions; for backslashes no witness that it fails is given."
  }
 ]
}