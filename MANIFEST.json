{
 "claims": [
  {
   "property": "C01",
   "status": "proved",
   "theorems": [
    "CodeParser.Props.C01_utf8_agreement",
    "CodeParser.Props.C01_scalar"
   ],
   "note": "All scalar sequences without U+FEFF, both conventions, any tab width > 0."
  },
  {
   "property": "C02",
   "status": "proved",
   "theorems": [
    "CodeParser.Props.C02_error_iff",
    "CodeParser.Props.C02_safeString_ok",
    "CodeParser.Props.C02_safeString_err"
   ],
   "note": "All byte strings."
  },
  {
   "property": "C03",
   "status": "proved",
   "theorems": [
    "CodeParser.Props.C03_step",
    "CodeParser.Props.C03_all",
    "CodeParser.Props.C03_drain",
    "CodeParser.Props.C03_ascii_kept"
   ],
   "note": "All byte strings, all positions."
  },
  {
   "property": "C04",
   "status": "proved",
   "theorems": [
    "CodeParser.Props.C04_lines"
   ],
   "note": "Line counters are natural numbers (saturation at 2^32-1 not modelled)."
  },
  {
   "property": "C05",
   "status": "proved",
   "theorems": [
    "CodeParser.Props.C05_tab_stops",
    "CodeParser.Props.C05_column_pos"
   ],
   "note": "tab_width > 0."
  },
  {
   "property": "C06",
   "status": "proved",
   "theorems": [
    "CodeParser.Props.C06_strictly_increasing"
   ],
   "note": ""
  },
  {
   "property": "C07",
   "status": "proved",
   "theorems": [
    "CodeParser.Props.C07_index"
   ],
   "note": ""
  },
  {
   "property": "C08",
   "status": "proved",
   "theorems": [
    "CodeParser.Props.C08_peek_source",
    "CodeParser.Props.C08_peek_wolfram",
    "CodeParser.Props.C08_peek_token",
    "CodeParser.Props.C08_skip_token"
   ],
   "note": "Source characters, Wolfram characters and tokens (all policies, tags, file names); skipping a peeked token equals reading it."
  },
  {
   "property": "C09",
   "status": "proved",
   "theorems": [
    "CodeParser.Props.C09_issue_log",
    "CodeParser.Props.C09_append_only"
   ],
   "note": "All histories; issue equality as the code defines it (ignoring additional sources)."
  },
  {
   "property": "C15",
   "status": "proved",
   "theorems": [
    "CodeParser.Props.C15_lists",
    "CodeParser.Props.C15_trivia",
    "CodeParser.Props.C15_error_names",
    "CodeParser.Props.C15_distinct",
    "CodeParser.Props.C15_distinct_bits",
    "CodeParser.Props.C15_disjoint"
   ],
   "note": "All 436 kinds and all pairs of kinds."
  },
  {
   "property": "C16",
   "status": "proved",
   "theorems": [
    "CodeParser.Props.C16_closer_kinds",
    "CodeParser.Props.C16_closer_injective",
    "CodeParser.Props.C16_opener_closer",
    "CodeParser.Props.C16_correspondence"
   ],
   "note": "All kinds."
  },
  {
   "property": "C39",
   "status": "proved",
   "theorems": [
    "CodeParser.Props.C39_infix",
    "CodeParser.Props.C39_prefix",
    "CodeParser.Props.C39_postfix",
    "CodeParser.Props.C39_binary",
    "CodeParser.Props.C39_ternary",
    "CodeParser.Props.C39_prefixBinary",
    "CodeParser.Props.C39_compound",
    "CodeParser.Props.C39_group",
    "CodeParser.Props.C39_call",
    "CodeParser.Props.C39_symbol_infix",
    "CodeParser.Props.C39_symbol_prefix",
    "CodeParser.Props.C39_symbol_postfix",
    "CodeParser.Props.C39_symbol_binary",
    "CodeParser.Props.C39_symbol_ternary",
    "CodeParser.Props.C39_symbol_prefixBinary",
    "CodeParser.Props.C39_symbol_compound",
    "CodeParser.Props.C39_symbol_group",
    "CodeParser.Props.C39_symbol_call",
    "CodeParser.Props.C39_token_kind"
   ],
   "note": "All nine enumerations in both directions; for token kinds the two newline kinds share a symbol."
  },
  {
   "property": "C40",
   "status": "proved",
   "theorems": [
    "CodeParser.Props.C40_split_lines"
   ],
   "note": "All texts."
  },
  {
   "property": "C41",
   "status": "proved",
   "theorems": [
    "CodeParser.Props.C41_split_by_pairs"
   ],
   "note": "All sequences and predicates."
  },
  {
   "property": "C42",
   "status": "proved",
   "theorems": [
    "CodeParser.Props.C42_contains",
    "CodeParser.Props.C42_overlaps_partial",
    "CodeParser.Props.C42_overlaps_not_symmetric",
    "CodeParser.Props.C42_intersection",
    "CodeParser.Props.C42_contains_span"
   ],
   "note": "overlaps is shown not to be symmetric; its symmetric closure detects a common position."
  },
  {
   "property": "C10",
   "status": "proved",
   "theorems": [
    "CodeParser.Props.C10_hex2",
    "CodeParser.Props.C10_hex4",
    "CodeParser.Props.C10_hex6",
    "CodeParser.Props.C10_octal",
    "CodeParser.Props.C10_escape",
    "CodeParser.Props.C10_plain",
    "CodeParser.Props.C10_position"
   ],
   "note": "All digit strings and following texts; also every one-character escape."
  },
  {
   "property": "C11",
   "status": "proved",
   "theorems": [
    "CodeParser.Props.C11_malformed"
   ],
   "note": "Every text after a backslash that is not an escape of the grammar."
  },
  {
   "property": "C12",
   "status": "partial",
   "theorems": [
    "CodeParser.Props.C12_no_abort_partial",
    "CodeParser.Props.C12_panic_iff",
    "CodeParser.Props.C12_violated"
   ],
   "note": "The code violates the property: it aborts exactly on numeric escapes of surrogates. Proved for all other inputs."
  },
  {
   "property": "C13",
   "status": "proved",
   "theorems": [
    "CodeParser.Props.C13_registered",
    "CodeParser.Props.C13_unregistered"
   ],
   "note": "Every registered name and every other name."
  },
  {
   "property": "C14",
   "status": "proved",
   "theorems": [
    "CodeParser.Props.C14_bsearch",
    "CodeParser.Props.C14_longname",
    "CodeParser.Props.C14_raw",
    "CodeParser.Props.C14_chars",
    "CodeParser.Props.C14_newline",
    "CodeParser.Props.C14_codepoint_table_violated"
   ],
   "note": "Search correctness for every sorted table; sortedness of all shipped tables used by the tokenizer. The code-point-to-name table is not sorted (shown)."
  },
  {
   "property": "C17",
   "status": "partial",
   "theorems": [
    "CodeParser.Props.C17_lossless_partial",
    "CodeParser.Props.C17_lossless",
    "CodeParser.Props.C17_violated"
   ],
   "note": "The code violates the property only for line continuations at the very end of the input, which belong to no token; proved in full for all other inputs."
  },
  {
   "property": "C18",
   "status": "proved",
   "theorems": [
    "CodeParser.Props.C18_positions"
   ],
   "note": "Both conventions."
  },
  {
   "property": "C19",
   "status": "proved",
   "theorems": [
    "CodeParser.Props.C19_terminates",
    "CodeParser.Props.C19_tokenize_bytes"
   ],
   "note": "All inputs and options, for the token loop and for tokenize_bytes."
  },
  {
   "property": "C20",
   "status": "proved",
   "theorems": [
    "CodeParser.Props.C20_comment"
   ],
   "note": "Every input, policy and state."
  },
  {
   "property": "C21",
   "status": "proved",
   "theorems": [
    "CodeParser.Props.C21_string"
   ],
   "note": "Every input, policy and state."
  },
  {
   "property": "C23",
   "status": "partial",
   "theorems": [
    "CodeParser.Props.C23_newline_tokens",
    "CodeParser.Props.C23_outside",
    "CodeParser.Props.C23_inside_partial",
    "CodeParser.Props.C23_violated"
   ],
   "note": "Outside of brackets in full. Inside brackets, and behind an unclosed one, every newline is internal unless <<, >> or >>> comes before it in the same brackets; there the code makes it top-level (shown)."
  },
  {
   "property": "C24",
   "status": "partial",
   "theorems": [
    "CodeParser.Props.C24_not_script",
    "CodeParser.Props.C24_skips_prefix",
    "CodeParser.Props.C24_tokens_partial",
    "CodeParser.Props.C24_violated"
   ],
   "note": "The code violates the property: an input starting with # but not #! loses its #, and a string or comment left open in the first line takes the following lines along (C24_violated). C24_tokens_partial says exactly which tokens are skipped, for all inputs."
  },
  {
   "property": "C25",
   "status": "partial",
   "theorems": [
    "CodeParser.Props.C25_tokens_partial",
    "CodeParser.Props.C25_surrogate_panics",
    "CodeParser.Props.C25_no_panic_partial",
    "CodeParser.Props.C25_violated"
   ],
   "note": "The code violates the property (byte order mark, escape of a surrogate, blank line in an unterminated token, character-index positions; witnesses in C25_violated). C25_no_panic_partial: tokenize gives tokens for every other text with line/column positions."
  },
  {
   "property": "C44",
   "status": "proved",
   "theorems": [
    "CodeParser.Props.C44_encoding_error",
    "CodeParser.Props.C44_tokenize_bytes",
    "CodeParser.Props.C44_parse"
   ],
   "note": "All inputs and options, for the token loop, tokenize_bytes and parse_bytes_cst_seq."
  },
  {
   "property": "C26",
   "status": "partial",
   "theorems": [
    "CodeParser.Props.C26_lossless_partial",
    "CodeParser.Props.C26_lossless",
    "CodeParser.Props.C26_before_recovery",
    "CodeParser.Props.C26_violated"
   ],
   "note": "The code violates the property for line continuations at the very end and where error recovery drops or rewrites tokens; proved in full for all other inputs, and for all inputs before recovery."
  },
  {
   "property": "C27",
   "status": "proved",
   "theorems": [
    "CodeParser.Props.C27_terminates"
   ],
   "note": "All inputs, options and conventions."
  },
  {
   "property": "C28",
   "status": "proved",
   "theorems": [
    "CodeParser.Props.C28_no_assertion",
    "CodeParser.Props.C28_no_assertion_recovery",
    "CodeParser.Props.C28_quiescent"
   ],
   "note": "All inputs. debug_assert! is not modelled."
  },
  {
   "property": "C29",
   "status": "partial",
   "theorems": [
    "CodeParser.Props.C29_group",
    "CodeParser.Props.C29_call",
    "CodeParser.Props.C29_missing_partial",
    "CodeParser.Props.C29_missing_before_recovery",
    "CodeParser.Props.C29_violated"
   ],
   "note": "Closed groups in full. Groups without closer: recovery may leave closers of inner groups in the flattened group (shown); before recovery the property holds."
  },
  {
   "property": "C30",
   "status": "proved",
   "theorems": [
    "CodeParser.Props.C30_arity",
    "CodeParser.Props.C30_infix"
   ],
   "note": "All nodes of all results."
  },
  {
   "property": "C31",
   "status": "proved",
   "theorems": [
    "CodeParser.Props.C31_chain",
    "CodeParser.Props.C31_determined"
   ],
   "note": "Chains of binary and infix operators over names, strings, numbers, groups and calls, of any length and depth; the tree of a chain of binary operators is determined by the kinds of its tokens."
  },
  {
   "property": "C32",
   "status": "proved",
   "theorems": [
    "CodeParser.Props.C32_invented",
    "CodeParser.Props.C32_position"
   ],
   "note": "All inputs."
  },
  {
   "property": "C33",
   "status": "partial",
   "theorems": [
    "CodeParser.Props.C33_hull",
    "CodeParser.Props.C33_contains_partial",
    "CodeParser.Props.C33_adjacent_partial",
    "CodeParser.Props.C33_violated"
   ],
   "note": "The code violates containment and adjacency for file names with an open bracket (shown). The hull for every node of every result; containment without unterminated tokens; adjacency without unterminated groups or tokens."
  },
  {
   "property": "C34",
   "status": "partial",
   "theorems": [
    "CodeParser.Props.C34_recovery_partial",
    "CodeParser.Props.C34_prefix",
    "CodeParser.Props.C34_violated"
   ],
   "note": "The code violates the property (shown); what is kept of a group are its first tokens; what is kept is in order, contains the first token, and is everything if all groups are closed."
  },
  {
   "property": "C35",
   "status": "partial",
   "theorems": [
    "CodeParser.Props.C35_no_panic_partial",
    "CodeParser.Props.C35_violated"
   ],
   "note": "The code violates the property (four witnesses); with line/column positions parsing never panics on UTF-8 text without escaped surrogates, U+FEFF and blank lines."
  },
  {
   "property": "C43",
   "status": "proved",
   "theorems": [
    "CodeParser.Props.C43_visit",
    "CodeParser.Props.C43_mapVisit",
    "CodeParser.Props.C43_mapVisit_id"
   ],
   "note": "All trees, including boxes and code nodes."
  },
  {
   "property": "C36",
   "status": "partial",
   "theorems": [
    "CodeParser.Props.C36_aggregate",
    "CodeParser.Props.C36_again_partial",
    "CodeParser.Props.C36_again_panics",
    "CodeParser.Props.C36_violated"
   ],
   "note": "Removal of exactly the trivia for all inputs. The code violates idempotence: aggregating again panics exactly when there is a call."
  },
  {
   "property": "C37",
   "status": "partial",
   "theorems": [
    "CodeParser.Props.C37_abstract_partial",
    "CodeParser.Props.C37_correct_partial",
    "CodeParser.Props.C37_violated",
    "CodeParser.Props.C37_violated_errors",
    "CodeParser.Props.C37_violated_encoding"
   ],
   "note": "No panic for valid UTF-8 without errors, without () and without \\[InvisibleApplication] behind the name of an operator such as Plus. The code violates the general claim: -() and others panic."
  },
  {
   "property": "C38",
   "status": "proved",
   "theorems": [
    "CodeParser.Props.C38_chain"
   ],
   "note": "Operands and operators in order, where chains are cut, and flat calls exactly when there is only one operator; for all trees and settings."
  },
  {
   "property": "C45",
   "status": "proved",
   "theorems": [
    "CodeParser.Props.C45_operator",
    "CodeParser.Props.C45_unique",
    "CodeParser.Props.C45_percent"
   ],
   "note": "All operator characters, policies, states and following texts that do not go on with an escaped ASCII character."
  },
  {
   "property": "C46",
   "status": "proved",
   "theorems": [
    "CodeParser.Props.C46_name"
   ],
   "note": "All ASCII names; names with escaped or non-ASCII letters are not covered."
  },
  {
   "property": "C22",
   "status": "proved",
   "theorems": [
    "CodeParser.Props.C22_number",
    "CodeParser.Props.C22_short"
   ],
   "note": "All literals written without escapes or line continuations, every policy and position; behind # and % only leading digits are read."
  },
  {
   "property": "C47",
   "status": "proved",
   "theorems": [
    "CodeParser.Props.C47_tokens",
    "CodeParser.Props.C47_unique"
   ],
   "note": "All texts cut into lexemes as specified, every convention of positions."
  },
  {
   "property": "C48",
   "status": "proved",
   "theorems": [
    "CodeParser.Props.C48_parses",
    "CodeParser.Props.C48_unambiguous"
   ],
   "note": "Texts that are cut into lexemes as in C47; expressions of the grammar in Spec/Syntax (message names, file names, integrals and differentials, and products with a span as a factor without parentheses, are not in it)."
  },
  {
   "property": "C49",
   "status": "partial",
   "theorems": [
    "CodeParser.Props.C49_lines_partial",
    "CodeParser.Props.C49_violated"
   ],
   "note": "The code violates the property: a sequence such as a+b is continued by a following line -c. Proved for lines that do not end with a sequence; with C48 for sequences the next line does not continue."
  },
  {
   "property": "C50",
   "status": "partial",
   "theorems": [
    "CodeParser.Props.C50_meaning_partial",
    "CodeParser.Props.C50_violated",
    "CodeParser.Props.C50_spelling"
   ],
   "note": "Proved for the expressions of C48 that Meaningful admits and with the setting flattenTimes off (the default), with all comparisons, those between vectors included; for #name, debug formatting is assumed to quote names. The code violates the general claim: {Comma@x,y} becomes {x,y}, and \\:03C0 is not Pi although \\:03c0 is."
  },
  {
   "property": "C51",
   "status": "proved",
   "theorems": [
    "CodeParser.Props.C51_tokens",
    "CodeParser.Props.C51_group",
    "CodeParser.Props.C51_parse"
   ],
   "note": "Positions given by line and column, when the call does not panic (see C25, C35). The text of a rewritten token lacks its last line (stated in CutOff as the code has it)."
  },
  {
   "property": "C52",
   "status": "proved",
   "theorems": [
    "CodeParser.Props.Link.C52_tree",
    "CodeParser.Props.Link.C52_trees",
    "CodeParser.Props.Link.C52_asts",
    "CodeParser.Props.Link.C52_tokens",
    "CodeParser.Props.Link.C52_issue",
    "CodeParser.Props.Link.C52_container",
    "CodeParser.Props.Link.C52_result",
    "CodeParser.Props.Link.C52_result_asts",
    "CodeParser.Props.Link.C52_result_tokens"
   ],
   "note": "All values, both versions of positions, every moment of aborting. Operators of nodes are assumed to have names (Named; true of everything parsing gives)."
  },
  {
   "property": "C53",
   "status": "partial",
   "theorems": [
    "CodeParser.Props.Link.C53_round_trip_partial",
    "CodeParser.Props.Link.C53_exact_partial",
    "CodeParser.Props.Link.C53_violated"
   ],
   "note": "The code violates the property for newlines on the top level, which are read as newlines inside of expressions; everything else is read back exactly. Trees whose positions do not fit their container are excluded."
  },
  {
   "property": "C54",
   "status": "partial",
   "theorems": [
    "CodeParser.Props.Link.C54_issue_partial",
    "CodeParser.Props.Link.C54_container_partial",
    "CodeParser.Props.Link.C54_sources_violated",
    "CodeParser.Props.Link.C54_confidence_violated"
   ],
   "note": "The code violates the property: an issue with additional sources panics when it is read, and data with a confidence level is written without the name of the field. Proved for the rest."
  },
  {
   "property": "C55",
   "status": "proved",
   "theorems": [
    "CodeParser.Props.Link.C55_answer",
    "CodeParser.Props.Link.C55_round_trip"
   ],
   "note": "All bytes and options when parsing does not panic (see C35), including unterminated tokens; that issues can be sent is a hypothesis, since their positions are not modelled for every site."
  },
  {
   "property": "C56",
   "status": "partial",
   "theorems": [
    "CodeParser.Props.C56_replacement",
    "CodeParser.Props.C56_display_partial",
    "CodeParser.Props.C56_plain",
    "CodeParser.Props.C56_total",
    "CodeParser.Props.C56_graphical_partial",
    "CodeParser.Props.C56_violated",
    "CodeParser.Props.C56_continuation_violated"
   ],
   "note": "The code violates the property: displaying \\[RawDoubleQuote] aborts, and the graphical forms of line continuations and of a lone backslash do not read back. Proved for the other characters; unsafe bytes and the end of the file are not characters."
  },
  {
   "property": "C57",
   "status": "proved",
   "theorems": [
    "CodeParser.Props.C57_lone",
    "CodeParser.Props.C57_total"
   ],
   "note": "All characters and spellings, every policy and position. Badly encoded bytes are not characters."
  },
  {
   "property": "C58",
   "status": "proved",
   "theorems": [
    "CodeParser.Props.C58_name",
    "CodeParser.Props.C58_string",
    "CodeParser.Props.C58_plain",
    "CodeParser.Props.C58_blob"
   ],
   "note": "All letters, with escapes and line continuations anywhere; badly encoded bytes are covered in strings without escapes only."
  },
  {
   "property": "C59",
   "status": "proved",
   "theorems": [
    "CodeParser.Props.C59_tag"
   ],
   "note": "All texts of characters. A backquote behind a word belongs to the tag, as in the code."
  },
  {
   "property": "C60",
   "status": "proved",
   "theorems": [
    "CodeParser.Props.C60_file"
   ],
   "note": "All texts of characters."
  },
  {
   "property": "C61",
   "status": "proved",
   "theorems": [
    "CodeParser.Props.C61_malformed"
   ],
   "note": "All texts of characters. The extent is stated as the code has it: one character more behind a complete number of digits, and behind \\[."
  },
  {
   "property": "C62",
   "status": "proved",
   "theorems": [
    "CodeParser.Props.C62_tokens",
    "CodeParser.Props.C62_only",
    "CodeParser.Props.C62_peek",
    "CodeParser.Props.C62_peek_name"
   ],
   "note": "All bytes and options, for the model of the reader and tokenizer with issues (Model/Check, Model/CheckTokens); the distance of names is an arbitrary function. What the parser asks of the tokenizer is covered by C62_peek and C62_peek_name, whole parses by C66."
  },
  {
   "property": "C63",
   "status": "proved",
   "theorems": [
    "CodeParser.Props.C63_issues",
    "CodeParser.Props.C63_peek",
    "CodeParser.Props.C63_recorded",
    "CodeParser.Props.C63_starts"
   ],
   "note": "All bytes and options. Issues are a list of events in the model, a set in the code."
  },
  {
   "property": "C64",
   "status": "proved",
   "theorems": [
    "CodeParser.Props.C64_reported",
    "CodeParser.Props.C64_peek"
   ],
   "note": "All bytes and options; C64_peek for a single token at any place."
  },
  {
   "property": "C65",
   "status": "proved",
   "theorems": [
    "CodeParser.Props.C65_off",
    "CodeParser.Props.C65_peek"
   ],
   "note": "All bytes and options."
  },
  {
   "property": "C66",
   "status": "proved",
   "theorems": [
    "CodeParser.Props.C66_parse",
    "CodeParser.Props.C66_same",
    "CodeParser.Props.C66_options",
    "CodeParser.Props.C66_no_new_panic",
    "CodeParser.Props.C66_returns"
   ],
   "note": "All bytes and options, for the model of the parser with issues (Model/CheckParser). The exception for escaped surrogates is part of the statement."
  },
  {
   "property": "C67",
   "status": "proved",
   "theorems": [
    "CodeParser.Props.C67_issues",
    "CodeParser.Props.C67_tracked",
    "CodeParser.Props.C67_lists"
   ],
   "note": "All bytes and options."
  },
  {
   "property": "C68",
   "status": "proved",
   "theorems": [
    "CodeParser.Props.C68_reported",
    "CodeParser.Props.C68_clean",
    "CodeParser.Props.C68_dropped"
   ],
   "note": "All bytes and options. Only ten fatal issues are kept, so that the issue about the encoding can be missing (C68_dropped)."
  },
  {
   "property": "C69",
   "status": "proved",
   "theorems": [
    "CodeParser.Props.C69_off"
   ],
   "note": "All bytes and options."
  },
  {
   "property": "C70",
   "status": "proved",
   "theorems": [
    "CodeParser.Props.C70_tokens",
    "CodeParser.Props.C70_peek",
    "CodeParser.Props.C70_parse"
   ],
   "note": "All bytes and options. What each issue claims is Spec/Issue (Says); issues of layout and about letters that are easily mistaken only have their actions described, and that the name offered is the nearest one is not stated."
  },
  {
   "property": "C71",
   "status": "proved",
   "theorems": [
    "CodeParser.Props.C71_mends",
    "CodeParser.Props.C71_respell"
   ],
   "note": "All bytes and options."
  },
  {
   "property": "C72",
   "status": "proved",
   "theorems": [
    "CodeParser.Props.C72_fatal",
    "CodeParser.Props.C72_none"
   ],
   "note": "All bytes and options."
  },
  {
   "property": "C73",
   "status": "proved",
   "theorems": [
    "CodeParser.Props.C73_tokens",
    "CodeParser.Props.C73_parse",
    "CodeParser.Props.C73_spaces",
    "CodeParser.Props.C73_mode"
   ],
   "note": "All bytes and positions; which characters are meant is Spec/Issue (Noticed), the place of a character in the text is where reading comes to it (Moves). C73_spaces and C73_mode show that the exceptions are real."
  },
  {
   "property": "C74",
   "status": "proved",
   "theorems": [
    "CodeParser.Props.C74_source",
    "CodeParser.Props.C74_wolfram",
    "CodeParser.Props.C74_characters",
    "CodeParser.Props.C74_tokens"
   ],
   "note": "Texts without byte order marks for the characters (what happens at broken bytes is C44 and C65), all bytes for tokens. What a text consists of is Spec/Iter (Wolfram), by Spec/Char (Escapes)."
  },
  {
   "property": "C75",
   "status": "partial",
   "theorems": [
    "CodeParser.Props.C75_printed",
    "CodeParser.Props.C75_determined_partial",
    "CodeParser.Props.C75_violated",
    "CodeParser.Props.C75_quotes_violated",
    "CodeParser.Props.C75_panics"
   ],
   "note": "Printing never aborts for all texts with positions in lines and columns. That the tree is determined is proved for trees whose texts are strings with their quotes, complete comments, or have no double quotes. The code violates the rest: there is a comma behind the last element of lists, quotes are not escaped, and bytes that are not UTF-8 and positions that are indices abort."
  },
  {
   "property": "C76",
   "status": "proved",
   "theorems": [
    "CodeParser.Props.C76_tokens",
    "CodeParser.Props.C76_trees",
    "CodeParser.Props.C76_equal",
    "CodeParser.Props.C76_asts",
    "CodeParser.Props.C76_aborts",
    "CodeParser.Props.C76_violated"
   ],
   "note": "All bytes and options, for pairs of runs that both give a result (when they do is C25 and C28). What may differ is Spec/Places (SameTree). C76_asts: the same for abstract syntax trees, with their issues. C76_violated shows that the exceptions are real."
  },
  {
   "property": "C77",
   "status": "proved",
   "theorems": [
    "CodeParser.Props.C77_tokens",
    "CodeParser.Props.C77_trees",
    "CodeParser.Props.C77_equal",
    "CodeParser.Props.C77_asts"
   ],
   "note": "For texts read with NotScript. C77_trees speaks about the kinds and texts of all tokens and nodes except for the extent of tokens without end and the content of groups without closer; C77_equal says that without such parts the trees are equal up to positions, and C77_asts that the abstract syntax trees are."
  },
  {
   "property": "C78",
   "status": "proved",
   "theorems": [
    "CodeParser.Props.C78_nested",
    "CodeParser.Props.C78_own"
   ],
   "note": "C78_own holds for every text that gives abstract syntax trees, C78_nested for those without unterminated tokens. The trees of C78_own are the concrete trees after aggregate, one for each abstract tree."
  },
  {
   "property": "C79",
   "status": "proved",
   "theorems": [
    "CodeParser.Props.C79_terminates",
    "CodeParser.Props.C79_bytes",
    "CodeParser.Props.C79_bound"
   ],
   "note": "The recursion of the code is modelled with a bound on its depth computed from the size of the tree; the theorems say that this bound is never reached and that larger bounds give the same result."
  },
  {
   "property": "C80",
   "status": "proved",
   "theorems": [
    "CodeParser.Props.C80_built",
    "CodeParser.Props.C80_unique"
   ],
   "note": "For all concrete trees of these kinds whose abstraction succeeds (when it does is C37). The rules are Spec/Build (Built); C80_unique says that they determine the result. Arithmetic, comparisons and ordinary operators are in C38 and C50."
  },
  {
   "property": "C81",
   "status": "proved",
   "theorems": [
    "CodeParser.Props.C81_words",
    "CodeParser.Props.C81_all",
    "CodeParser.Props.C81_written",
    "CodeParser.Props.C81_forgets"
   ],
   "note": "For all bytes and settings. The specification is Spec/Words (SameWords, Stands, LeftOut). C81_all: without the three exceptions nothing is lost. C81_forgets: -(0 ] b) really becomes 0, and b is lost."
  },
  {
   "property": "C82",
   "status": "proved",
   "theorems": [
    "CodeParser.Props.Library.C82_parse",
    "CodeParser.Props.Library.C82_quirks",
    "CodeParser.Props.Library.C82_answered",
    "CodeParser.Props.Library.C82_tokens",
    "CodeParser.Props.Library.C82_leaf",
    "CodeParser.Props.Library.C82_safe",
    "CodeParser.Props.Library.C82_empty",
    "CodeParser.Props.Library.C82_create",
    "CodeParser.Props.Library.C82_destroy_never",
    "CodeParser.Props.Library.C82_round_trip",
    "CodeParser.Props.Library.C82_only",
    "CodeParser.Props.Library.C82_file"
   ],
   "note": "For every function except Abstract_LibraryLink, which is in C83. C82_destroy_never is a violation: no call of DestroyParserSession_LibraryLink returns. Texts of messages, file contents and the unicode table are parameters (Host); a tab width of 0 is outside of the theorems."
  },
  {
   "property": "C83",
   "status": "proved",
   "theorems": [
    "CodeParser.Props.Library.C83_abstract",
    "CodeParser.Props.Library.C83_same",
    "CodeParser.Props.Library.C83_only"
   ],
   "note": "For texts whose positions fit 32 bits. The texts of the messages of issues and the printing of a string in a message are parameters. Trees of boxes, held code and leaves without positions are outside of the model of abstraction; for them only C83_only says something."
  },
  {
   "property": "C84",
   "status": "proved",
   "theorems": [
    "CodeParser.Props.Library.C84_sends",
    "CodeParser.Props.Library.C84_call",
    "CodeParser.Props.Library.C84_correct"
   ],
   "note": "The texts of the messages of issues and the printing of a string in a message are parameters; that printing gives a text, and that the places of an issue are those of the model, are hypotheses. C84_call and C84_correct are for texts whose positions fit 32 bits."
  },
  {
   "property": "C85",
   "status": "proved",
   "theorems": [
    "CodeParser.Props.C85_full_form",
    "CodeParser.Props.C85_lines",
    "CodeParser.Props.C85_text",
    "CodeParser.Props.C85_unambiguous",
    "CodeParser.Props.C85_notation",
    "CodeParser.Props.C85_comma"
   ],
   "note": "Names have letters of any alphabet and strings any characters, but the byte order mark; the setting flattenTimes is off (the default). Debug formatting is assumed to quote names, as in C50. C85_comma is the exception of the statement."
  },
  {
   "property": "C86",
   "status": "proved",
   "theorems": [
    "CodeParser.Props.C86_layout",
    "CodeParser.Props.C86_plain"
   ],
   "note": "With the same assumptions as C85. Line breaks are a line feed or a carriage return with a line feed."
  },
  {
   "property": "C87",
   "status": "proved",
   "theorems": [
    "CodeParser.Props.C87_parens",
    "CodeParser.Props.C87_text",
    "CodeParser.Props.C87_unambiguous",
    "CodeParser.Props.C87_lines",
    "CodeParser.Props.C87_minus_line"
   ],
   "note": "With the same assumptions as C85. C87_minus_line is the exception for lines that begin with a sign. The tables of operators are in Spec/Parens."
  }
 ]
}