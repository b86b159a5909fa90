
c("C01","proved",["C01_utf8_agreement","C01_scalar"],"All scalar sequences without U+FEFF, both conventions, any tab width > 0.")
c("C02","proved",["C02_error_iff","C02_safeString_ok","C02_safeString_err"],"All byte strings.")
c("C03","proved",["C03_step","C03_all","C03_drain","C03_ascii_kept"],"All byte strings, all positions.")
c("C04","proved",["C04_lines"],"Line counters are natural numbers (saturation at 2^32-1 not modelled).")
c("C05","proved",["C05_tab_stops","C05_column_pos"],"tab_width > 0.")
c("C06","proved",["C06_strictly_increasing"],"")
c("C07","proved",["C07_index"],"")
c("C08","proved",["C08_peek_source","C08_peek_wolfram","C08_peek_token","C08_skip_token"],"Source characters, Wolfram characters and tokens (all policies, tags, file names); skipping a peeked token equals reading it.")
c("C09","proved",["C09_issue_log","C09_append_only"],"All histories; issue equality as the code defines it (ignoring additional sources).")
c("C15","proved",["C15_lists","C15_trivia","C15_error_names","C15_distinct","C15_distinct_bits","C15_disjoint"],"All 436 kinds and all pairs of kinds.")
c("C16","proved",["C16_closer_kinds","C16_closer_injective","C16_opener_closer","C16_correspondence"],"All kinds.")
c("C39","proved",["C39_infix","C39_prefix","C39_postfix","C39_binary","C39_ternary","C39_prefixBinary","C39_compound","C39_group","C39_call","C39_symbol_infix","C39_symbol_prefix","C39_symbol_postfix","C39_symbol_binary","C39_symbol_ternary","C39_symbol_prefixBinary","C39_symbol_compound","C39_symbol_group","C39_symbol_call","C39_token_kind"],"All nine enumerations in both directions; for token kinds the two newline kinds share a symbol.")
c("C40","proved",["C40_split_lines"],"All texts.")
c("C41","proved",["C41_split_by_pairs"],"All sequences and predicates.")
c("C42","proved",["C42_contains","C42_overlaps_partial","C42_overlaps_not_symmetric","C42_intersection","C42_contains_span"],"overlaps is shown not to be symmetric; its symmetric closure detects a common position.")
c("C10","proved",["C10_hex2","C10_hex4","C10_hex6","C10_octal","C10_escape","C10_plain","C10_position"],"All digit strings and following texts; also every one-character escape.")
c("C11","proved",["C11_malformed"],"Every text after a backslash that is not an escape of the grammar.")
c("C12","partial",["C12_no_abort_partial","C12_panic_iff","C12_violated"],"The code violates the property: it aborts exactly on numeric escapes of surrogates. Proved for all other inputs.")
c("C13","proved",["C13_registered","C13_unregistered"],"Every registered name and every other name.")
c("C14","proved",["C14_bsearch","C14_longname","C14_raw","C14_chars","C14_newline","C14_codepoint_table_violated"],"Search correctness for every sorted table; sortedness of all shipped tables used by the tokenizer. The code-point-to-name table is not sorted (shown).")
c("C17","partial",["C17_lossless_partial","C17_lossless","C17_violated"],"The code violates the property only for line continuations at the very end of the input, which belong to no token; proved in full for all other inputs.")
c("C18","proved",["C18_positions"],"Both conventions.")
c("C19","proved",["C19_terminates","C19_tokenize_bytes"],"All inputs and options, for the token loop and for tokenize_bytes.")
c("C20","proved",["C20_comment"],"Every input, policy and state.")
c("C21","proved",["C21_string"],"Every input, policy and state.")
c("C23","partial",["C23_newline_tokens","C23_outside","C23_inside_partial","C23_violated"],"Outside of brackets in full. Inside brackets, and behind an unclosed one, every newline is internal unless <<, >> or >>> comes before it in the same brackets; there the code makes it top-level (shown).")
c("C24","partial",["C24_not_script","C24_skips_prefix","C24_tokens_partial","C24_violated"],"The code violates the property: an input starting with # but not #! loses its #, and a string or comment left open in the first line takes the following lines along (C24_violated). C24_tokens_partial says exactly which tokens are skipped, for all inputs.")
c("C25","partial",["C25_tokens_partial","C25_surrogate_panics","C25_no_panic_partial","C25_violated"],"The code violates the property (byte order mark, escape of a surrogate, blank line in an unterminated token, character-index positions; witnesses in C25_violated). C25_no_panic_partial: tokenize gives tokens for every other text with line/column positions.")
c("C44","proved",["C44_encoding_error","C44_tokenize_bytes","C44_parse"],"All inputs and options, for the token loop, tokenize_bytes and parse_bytes_cst_seq.")
c("C26","partial",["C26_lossless_partial","C26_lossless","C26_before_recovery","C26_violated"],"The code violates the property for line continuations at the very end and where error recovery drops or rewrites tokens; proved in full for all other inputs, and for all inputs before recovery.")
c("C27","proved",["C27_terminates"],"All inputs, options and conventions.")
c("C28","proved",["C28_no_assertion","C28_no_assertion_recovery","C28_quiescent"],"All inputs. debug_assert! is not modelled.")
c("C29","partial",["C29_group","C29_call","C29_missing_partial","C29_missing_before_recovery","C29_violated"],"Closed groups in full. Groups without closer: recovery may leave closers of inner groups in the flattened group (shown); before recovery the property holds.")
c("C30","proved",["C30_arity","C30_infix"],"All nodes of all results.")
c("C31","proved",["C31_chain","C31_determined"],"Chains of binary and infix operators over names, strings, numbers, groups and calls, of any length and depth; the tree of a chain of binary operators is determined by the kinds of its tokens.")
c("C32","proved",["C32_invented","C32_position"],"All inputs.")
c("C33","partial",["C33_hull","C33_contains_partial","C33_adjacent_partial","C33_violated"],"The code violates containment and adjacency for file names with an open bracket (shown). The hull for every node of every result; containment without unterminated tokens; adjacency without unterminated groups or tokens.")
c("C34","partial",["C34_recovery_partial","C34_prefix","C34_violated"],"The code violates the property (shown); what is kept of a group are its first tokens; what is kept is in order, contains the first token, and is everything if all groups are closed.")
c("C35","partial",["C35_no_panic_partial","C35_violated"],"The code violates the property (four witnesses); with line/column positions parsing never panics on UTF-8 text without escaped surrogates, U+FEFF and blank lines.")
c("C43","proved",["C43_visit","C43_mapVisit","C43_mapVisit_id"],"All trees, including boxes and code nodes.")
c("C36","partial",["C36_aggregate","C36_again_partial","C36_again_panics","C36_violated"],"Removal of exactly the trivia for all inputs. The code violates idempotence: aggregating again panics exactly when there is a call.")
c("C37","partial",["C37_abstract_partial","C37_correct_partial","C37_violated","C37_violated_errors","C37_violated_encoding"],"No panic for valid UTF-8 without errors, without () and without \\[InvisibleApplication] behind the name of an operator such as Plus. The code violates the general claim: -() and others panic.")
c("C38","proved",["C38_chain"],"Operands and operators in order, where chains are cut, and flat calls exactly when there is only one operator; for all trees and settings.")
c("C45","proved",["C45_operator","C45_unique","C45_percent"],"All operator characters, policies, states and following texts that do not go on with an escaped ASCII character.")
c("C46","proved",["C46_name"],"All ASCII names; names with escaped or non-ASCII letters are not covered.")
c("C22","proved",["C22_number","C22_short"],"All literals written without escapes or line continuations, every policy and position; behind # and % only leading digits are read.")
c("C47","proved",["C47_tokens","C47_unique"],"All texts cut into lexemes as specified, every convention of positions.")
c("C48","proved",["C48_parses","C48_unambiguous"],"Texts that are cut into lexemes as in C47; expressions of the grammar in Spec/Syntax (message names, file names, integrals and differentials, and products with a span as a factor without parentheses, are not in it).")
c("C49","partial",["C49_lines_partial","C49_violated"],"The code violates the property: a sequence such as a+b is continued by a following line -c. Proved for lines that do not end with a sequence; with C48 for sequences the next line does not continue.")
c("C50","partial",["C50_meaning_partial","C50_violated","C50_spelling"],"Proved for the expressions of C48 that Meaningful admits and with the setting flattenTimes off (the default), with all comparisons, those between vectors included; for #name, debug formatting is assumed to quote names. The code violates the general claim: {Comma@x,y} becomes {x,y}, and \\:03C0 is not Pi although \\:03c0 is.")
c("C51","proved",["C51_tokens","C51_group","C51_parse"],"Positions given by line and column, when the call does not panic (see C25, C35). The text of a rewritten token lacks its last line (stated in CutOff as the code has it).")
c("C52","proved",["Link.C52_tree","Link.C52_trees","Link.C52_asts","Link.C52_tokens","Link.C52_issue","Link.C52_container","Link.C52_result","Link.C52_result_asts","Link.C52_result_tokens"],"All values, both versions of positions, every moment of aborting. Operators of nodes are assumed to have names (Named; true of everything parsing gives).")
c("C53","partial",["Link.C53_round_trip_partial","Link.C53_exact_partial","Link.C53_violated"],"The code violates the property for newlines on the top level, which are read as newlines inside of expressions; everything else is read back exactly. Trees whose positions do not fit their container are excluded.")
c("C54","partial",["Link.C54_issue_partial","Link.C54_container_partial","Link.C54_sources_violated","Link.C54_confidence_violated"],"The code violates the property: an issue with additional sources panics when it is read, and data with a confidence level is written without the name of the field. Proved for the rest.")
c("C55","proved",["Link.C55_answer","Link.C55_round_trip"],"All bytes and options when parsing does not panic (see C35), including unterminated tokens; that issues can be sent is a hypothesis, since their positions are not modelled for every site.")
c("C56","partial",["C56_replacement","C56_display_partial","C56_plain","C56_total","C56_graphical_partial","C56_violated","C56_continuation_violated"],"The code violates the property: displaying \\[RawDoubleQuote] aborts, and the graphical forms of line continuations and of a lone backslash do not read back. Proved for the other characters; unsafe bytes and the end of the file are not characters.")
c("C57","proved",["C57_lone","C57_total"],"All characters and spellings, every policy and position. Badly encoded bytes are not characters.")
c("C58","proved",["C58_name","C58_string","C58_plain","C58_blob"],"All letters, with escapes and line continuations anywhere; badly encoded bytes are covered in strings without escapes only.")
c("C59","proved",["C59_tag"],"All texts of characters. A backquote behind a word belongs to the tag, as in the code.")
c("C60","proved",["C60_file"],"All texts of characters.")
c("C61","proved",["C61_malformed"],"All texts of characters. The extent is stated as the code has it: one character more behind a complete number of digits, and behind \\[.")
c("C62","proved",["C62_tokens","C62_only","C62_peek","C62_peek_name"],"All bytes and options, for the model of the reader and tokenizer with issues (Model/Check, Model/CheckTokens); the distance of names is an arbitrary function. What the parser asks of the tokenizer is covered by C62_peek and C62_peek_name, whole parses by C66.")
c("C63","proved",["C63_issues","C63_peek","C63_recorded","C63_starts"],"All bytes and options. Issues are a list of events in the model, a set in the code.")
c("C64","proved",["C64_reported","C64_peek"],"All bytes and options; C64_peek for a single token at any place.")
c("C65","proved",["C65_off","C65_peek"],"All bytes and options.")
c("C66","proved",["C66_parse","C66_same","C66_options","C66_no_new_panic","C66_returns"],"All bytes and options, for the model of the parser with issues (Model/CheckParser). The exception for escaped surrogates is part of the statement.")
c("C67","proved",["C67_issues","C67_tracked","C67_lists"],"All bytes and options.")
c("C68","proved",["C68_reported","C68_clean","C68_dropped"],"All bytes and options. Only ten fatal issues are kept, so that the issue about the encoding can be missing (C68_dropped).")
c("C69","proved",["C69_off"],"All bytes and options.")
c("C70","proved",["C70_tokens","C70_peek","C70_parse"],"All bytes and options. What each issue claims is Spec/Issue (Says); issues of layout and about letters that are easily mistaken only have their actions described, and that the name offered is the nearest one is not stated.")
c("C71","proved",["C71_mends","C71_respell"],"All bytes and options.")
c("C72","proved",["C72_fatal","C72_none"],"All bytes and options.")
c("C73","proved",["C73_tokens","C73_parse","C73_spaces","C73_mode"],"All bytes and positions; which characters are meant is Spec/Issue (Noticed), the place of a character in the text is where reading comes to it (Moves). C73_spaces and C73_mode show that the exceptions are real.")
c("C74","proved",["C74_source","C74_wolfram","C74_characters","C74_tokens"],"Texts without byte order marks for the characters (what happens at broken bytes is C44 and C65), all bytes for tokens. What a text consists of is Spec/Iter (Wolfram), by Spec/Char (Escapes).")
c("C75","partial",["C75_printed","C75_determined_partial","C75_violated","C75_quotes_violated","C75_panics"],"Printing never aborts for all texts with positions in lines and columns. That the tree is determined is proved for trees whose texts are strings with their quotes, complete comments, or have no double quotes. The code violates the rest: there is a comma behind the last element of lists, quotes are not escaped, and bytes that are not UTF-8 and positions that are indices abort.")
c("C76","proved",["C76_tokens","C76_trees","C76_equal","C76_asts","C76_aborts","C76_violated"],"All bytes and options, for pairs of runs that both give a result (when they do is C25 and C28). What may differ is Spec/Places (SameTree). C76_asts: the same for abstract syntax trees, with their issues. C76_violated shows that the exceptions are real.")
c("C77","proved",["C77_tokens","C77_trees","C77_equal","C77_asts"],"For texts read with NotScript. C77_trees speaks about the kinds and texts of all tokens and nodes except for the extent of tokens without end and the content of groups without closer; C77_equal says that without such parts the trees are equal up to positions, and C77_asts that the abstract syntax trees are.")
c("C78","proved",["C78_nested","C78_own"],"C78_own holds for every text that gives abstract syntax trees, C78_nested for those without unterminated tokens. The trees of C78_own are the concrete trees after aggregate, one for each abstract tree.")
c("C79","proved",["C79_terminates","C79_bytes","C79_bound"],"The recursion of the code is modelled with a bound on its depth computed from the size of the tree; the theorems say that this bound is never reached and that larger bounds give the same result.")
c("C80","proved",["C80_built","C80_unique"],"For all concrete trees of these kinds whose abstraction succeeds (when it does is C37). The rules are Spec/Build (Built); C80_unique says that they determine the result. Arithmetic, comparisons and ordinary operators are in C38 and C50.")
c("C81","proved",["C81_words","C81_all","C81_written","C81_forgets"],"For all bytes and settings. The specification is Spec/Words (SameWords, Stands, LeftOut). C81_all: without the three exceptions nothing is lost. C81_forgets: -(0 ] b) really becomes 0, and b is lost.")
c("C82","proved",["Library.C82_parse","Library.C82_quirks","Library.C82_answered","Library.C82_tokens","Library.C82_leaf","Library.C82_safe","Library.C82_empty","Library.C82_create","Library.C82_destroy_never","Library.C82_round_trip","Library.C82_only","Library.C82_file"],"For every function except Abstract_LibraryLink, which is in C83. C82_destroy_never is a violation: no call of DestroyParserSession_LibraryLink returns. Texts of messages, file contents and the unicode table are parameters (Host); a tab width of 0 is outside of the theorems.")
c("C83","proved",["Library.C83_abstract","Library.C83_same","Library.C83_only"],"For texts whose positions fit 32 bits. The texts of the messages of issues and the printing of a string in a message are parameters. Trees of boxes, held code and leaves without positions are outside of the model of abstraction; for them only C83_only says something.")
c("C84","proved",["Library.C84_sends","Library.C84_call","Library.C84_correct"],"The texts of the messages of issues and the printing of a string in a message are parameters; that printing gives a text, and that the places of an issue are those of the model, are hypotheses. C84_call and C84_correct are for texts whose positions fit 32 bits.")
c("C85","proved",["C85_full_form","C85_lines","C85_text","C85_unambiguous","C85_notation","C85_comma"],"Names have letters of any alphabet and strings any characters, but the byte order mark; the setting flattenTimes is off (the default). Debug formatting is assumed to quote names, as in C50. C85_comma is the exception of the statement.")
c("C86","proved",["C86_layout","C86_plain"],"With the same assumptions as C85. Line breaks are a line feed or a carriage return with a line feed.")
c("C87","proved",["C87_parens","C87_text","C87_unambiguous","C87_lines","C87_minus_line"],"With the same assumptions as C85. C87_minus_line is the exception for lines that begin with a sign. The tables of operators are in Spec/Parens.")
