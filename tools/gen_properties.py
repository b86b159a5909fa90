#!/usr/bin/env python3
"""Writes /verif/properties.jsonl."""
import json, os
S = "crates/wolfram-parser/src/"
P = []
def p(title, statement, quantifier, why, *anchors):
    P.append(dict(id="C%02d" % (len(P) + 1), title=title, statement=statement,
                  quantifier=quantifier, why_tests_cant=why,
                  anchors=[a if a.startswith("crates/") else S + a for a in anchors]))

# --- reading bytes -------------------------------------------------------
p("Reading source characters agrees with UTF-8",
  "If the input bytes are the UTF-8 encoding of a sequence of Unicode scalar values containing no U+FEFF, then reading source characters until end of file yields exactly that sequence (with each CR LF pair reported as one character) and raises no encoding error.",
  "every finite sequence of Unicode scalar values",
  "there are 1112064 scalar values and unboundedly many sequences; the boundaries between 1/2/3/4-byte forms interact with their neighbours",
  "read/byte_decoder.rs: ByteDecoder_nextSourceCharacter", "iter.rs: SourceChars")
p("Encoding errors are reported exactly for invalid UTF-8 or a BOM",
  "Reading all of an input records an unsafe-character-encoding error if and only if the input is not well-formed UTF-8 or it contains the byte-order mark U+FEFF; safe_string therefore returns Ok(text) exactly for well-formed BOM-free input.",
  "every finite byte sequence",
  "well-formedness is a property of all byte sequences; a single accepted overlong form, surrogate or truncated sequence falsifies it",
  "lib.rs: safe_string", "read/byte_decoder.rs: ByteDecoder_incompleteByteSequence, ByteDecoder_straySurrogate, ByteDecoder_bom")
p("Reading makes progress, loses no byte and terminates",
  "From any position, reading a source character either reports end of file, which happens only when no byte is left, or consumes between one and four bytes; repeating it consumes the whole input, and the consumed pieces concatenated in order are the input.",
  "every byte sequence, valid or not, and every position in it",
  "quantifies over all byte sequences including malformed ones",
  "read/byte_decoder.rs: ByteDecoder_nextSourceCharacter_uncommon", "read/byte_buffer.rs: ByteBuffer_nextByte")
p("Line numbers count line terminators",
  "With the LineColumn convention, after reading any number of source characters the reported line is one plus the number of line terminators read (LF, lone CR, or CR LF counted once), and right after a terminator the column is 1.",
  "every byte sequence and every number of characters read",
  "history-dependent: depends on all the characters read so far",
  "read/byte_decoder.rs: SourceManager::newline, windowsNewline, increment, tab")
p("Tab stops",
  "Reading a tab moves the column to the next tab stop: the new column is the least column greater than the old one of the form k*tab_width+1; the line does not change.",
  "every column and every positive tab width",
  "unbounded column and tab width",
  "read/byte_decoder.rs: SourceManager::tab")
p("Source positions strictly increase",
  "Each source character read before end of file moves the reported source position strictly forward (lexicographically in line/column, numerically in character-index mode); end of file leaves it unchanged.",
  "every byte sequence, both source conventions, every positive tab width, every position",
  "history-dependent, all inputs",
  "read/byte_decoder.rs: SourceManager", "source.rs: Location")
p("Character-index positions count characters",
  "In the CharacterIndex convention the position after reading n source characters is 1 + n + (number of CR LF pairs among them).",
  "every byte sequence and every number of characters read",
  "history-dependent, all inputs",
  "read/byte_decoder.rs: SourceManager::windowsNewline, increment")
p("Peeking does not move the reader",
  "Peeking at the next source character, Wolfram character or token returns what reading it would return and leaves the reading position (byte offset, source location, end-of-file state) unchanged, so peeking twice gives the same answer.",
  "every reader state reachable on any input, every reading policy",
  "all inputs and all states",
  "read.rs: Reader::peek_source_char, peek_wolfram_char, mark, seek", "tokenize/tokenizer.rs: Tokenizer::peek_token_with")
p("The issue collection is a bounded duplicate-free log",
  "After any history of reported issues the fatal list has at most 10 entries, no list contains an issue twice, every non-fatal reported issue is present, and entries keep the order in which they were first reported.",
  "every finite sequence of reported issues",
  "quantifies over all histories of addIssue calls",
  "read.rs: Reader::addIssue")
# --- Wolfram characters ---------------------------------------------------
p("Numeric character escapes denote their code point",
  "An escape \\.hh, \\:hhhh, \\|hhhhhh or \\ooo whose digits spell a Unicode scalar value is read as one Wolfram character with that value (with the documented canonicalisation of quote and backslash) and consumes exactly the escape.",
  "every digit string (upper or lower case) and every following text",
  "over a million escapes times unbounded following text",
  "read/character_decoder.rs: CharacterDecoder_handle2Hex, CharacterDecoder_handle4Hex, CharacterDecoder_handle6Hex, CharacterDecoder_handleOctal")
p("Malformed escapes degrade to a backslash",
  "A backslash that does not start a well-formed escape is read as a backslash character consuming exactly that one byte, so nothing after it is lost.",
  "every input following a backslash",
  "all texts following the backslash",
  "read/character_decoder.rs: CharacterDecoder_handleUnhandledEscape, CharacterDecoder_handleLongName, CharacterDecoder_handle2Hex, CharacterDecoder_handle4Hex, CharacterDecoder_handle6Hex, CharacterDecoder_handleOctal")
p("Reading a Wolfram character never aborts",
  "Reading a Wolfram character never panics, whatever the input. (The code violates this: \\:d800 and \\|00d800 panic.)",
  "every byte sequence",
  "all inputs; the failing inputs are a 2048-element subset of the escapes",
  "read/character_decoder.rs: CharacterDecoder_handle4Hex, CharacterDecoder_handle6Hex")
p("Long names decode to their registered code point",
  "For every registered long name, reading \\[Name] gives the code point registered for it; an unregistered well-formed name is reported as an unrecognised escape.",
  "every registered name (about a thousand) and every other identifier",
  "table-wide and open-ended for unregistered names; correctness of binary search depends on the ordering of a generated table",
  "read/character_decoder.rs: CharacterDecoder_handleLongName", "generated/long_names_registration.rs: LONGNAME_TO_CODEPOINT_MAP")
p("Long-name table lookups find exactly the table's entries",
  "A binary search used for long names and code points returns the entry for a key if and only if the table contains that key.",
  "every key and every sorted table; sortedness of the shipped tables",
  "unbounded keys",
  "long_names.rs", "utils.rs")
# --- tokens ---------------------------------------------------------------
p("Token-kind classification agrees with its definition lists",
  "For every token kind, the predicates isPossibleBeginning, isCloser, isError, isEmpty, isUnterminated, isTrivia and isTriviaButNotToplevelNewline computed from its bit pattern agree with membership in the documented lists, and distinct kinds have distinct bit patterns.",
  "every token kind (436)",
  "must hold for each kind and for each pair of kinds; tests check a few",
  "tokenize/token_kind.rs: variant, TokenKind::isTrivia, isCloser, isError, isEmpty")
p("Openers and closers are in one-to-one correspondence",
  "Each group opener has exactly one closer, distinct openers that are not spelled variants of the same bracket have distinct closers, and a closer token is recognised as closing exactly the groups opened by its opener.",
  "every token kind",
  "table-wide",
  "tokenize/token_kind.rs: GroupOpenerToCloser, TokenToCloser")
p("Tokenization is lossless",
  "The texts of the tokens returned for an input, concatenated in order, are exactly the input bytes (when the first line is not treated as a script line).",
  "every byte sequence and all options",
  "all inputs: every tokenizer path must put back exactly the characters it does not keep",
  "lib.rs: tokenize_bytes", "tokenize/tokenizer.rs: Tokenizer::next_token")
p("Token positions are contiguous",
  "The first token starts at the initial position, each token starts where the previous one ends, and each token's source span is exactly the position change caused by reading its text.",
  "every byte sequence, both source conventions",
  "all inputs",
  "tokenize/tokenizer.rs: Tokenizer::token, skip", "source.rs: Span")
p("Tokenization terminates and every token is non-empty",
  "Tokenizing any input terminates; every token returned before end of file has a non-empty text, so there are at most as many tokens as bytes.",
  "every byte sequence",
  "termination is not testable; all inputs",
  "lib.rs: tokenize_bytes", "tokenize/tokenizer.rs")
p("Comments nest",
  "A text starting with (* is read as one Comment token that ends at the first position where every (* has been matched by a *), or as one Error_UnterminatedComment token covering the rest of the input when there is no such position.",
  "every input starting with (*",
  "unbounded nesting depth and comment contents",
  "tokenize/tokenizer.rs: Tokenizer_handleComment")
p("Strings end at the first unescaped quote",
  "A text starting with a double quote is read as one String token ending at the first later double quote that is not escaped, or as Error_UnterminatedString covering the rest of the input if there is none.",
  "every input starting with a double quote",
  "unbounded contents; interaction with escapes",
  "tokenize/tokenizer.rs: Tokenizer_handleString")
p("Number tokens are classified by their text",
  "A number literal (optional base, digits with optional fraction, optional precision or accuracy, optional exponent) followed by something that cannot continue it is exactly one token, whose kind is determined by its parts: it is an Error_Number if the base is out of 2..36 or a digit is out of range, otherwise Real when it has a radix point or a precision mark, otherwise Rational when it has a negative non-zero exponent, otherwise Integer.",
  "every number literal written without escapes, with digit strings of any length, and everything that can follow it",
  "unbounded digit strings and part combinations",
  "tokenize/tokenizer.rs: Tokenizer_handleNumber, NumberTokenizationContext::computeTok")
p("Newlines are top-level exactly outside groups",
  "A newline token is reported as ToplevelNewline when the parser is not inside any bracketed group and as InternalNewline when it is.",
  "every input and every parser state",
  "depends on the whole history of opened and closed groups",
  "parse.rs: ParserSession::current_token", "tokenize/tokenizer.rs: Tokenizer::peek_token")
p("Script first lines",
  "With first_line_behavior NotScript nothing is skipped; with Script or Check, an input starting with #! has its first line (up to and including its terminator) skipped; no other input loses characters in Check mode.",
  "every input",
  "all inputs",
  "tokenize/tokenizer.rs: Tokenizer::handle_first_line")
p("Tokenizing never aborts on text",
  "tokenize of a string slice never panics. (The code violates this: any text containing U+FEFF, and any text containing an escaped surrogate such as \\:d800, panics.)",
  "every string",
  "all strings",
  "lib.rs: tokenize")
# --- parser ---------------------------------------------------------------
p("Parsing is lossless",
  "The leaves of the concrete syntax trees returned for an input, read left to right, are exactly the input: each token of the input appears exactly once and in order, and every other leaf is empty (before error recovery rewrites unterminated groups).",
  "every byte sequence and all options",
  "all inputs; every one of about forty parselets must push each token exactly once on every path",
  "parse.rs: ParseBuilder, ParserSession", "parse_cst.rs: ParseCst")
p("Parsing terminates",
  "Parsing any input terminates.",
  "every byte sequence",
  "termination is not testable",
  "parse.rs: do_parse, ParserSession::parse_climb", "parse/parselet.rs")
p("Parsing ends in a quiescent state and never trips an internal assertion",
  "Whatever the tokens, when parsing finishes every opened group and operator context has been closed, and no internal assertion of the parser (empty node, missing context, unexpected call body, assert-false parselet) is ever violated.",
  "every token stream",
  "all inputs; the assertions relate stack depths at distant points",
  "parse.rs: do_parse, ParserSession::is_quiescent", "parse_cst.rs")
p("Groups are delimited by matching brackets",
  "Every Group node in the result starts with an opener token and ends with the closer token matching that opener; every GroupMissingCloser node starts with an opener and contains no matching closer among its own leaves.",
  "every input",
  "all inputs, unbounded nesting",
  "parse/parselet.rs: GroupParselet", "parse_cst.rs: reduce_group, reduce_group_missing_closer")
p("Operator nodes have their operands",
  "Ignoring whitespace, comments and newlines, every Prefix node has exactly two children, every Postfix node two, every Binary node three, every Ternary node five, every Infix node an odd number (at least three) alternating operands and operators.",
  "every input",
  "all inputs; abstraction aborts if violated",
  "parse/parselet.rs", "abstract_cst.rs: expect_children")
p("Precedence climbing respects precedence and associativity",
  "In a chain of binary operators, the parser groups tighter-binding operators first, and groups equal-precedence operators to the left unless the operator is right associative, in which case to the right.",
  "every chain of operands and operators of any length",
  "unbounded chains and all precedence combinations",
  "precedence.rs: Precedence::greater", "parse.rs: ParserSession::parse_climb", "generated/precedence_values.rs")
p("Implicit tokens are empty",
  "Tokens the parser invents (implicit Times, Null, One, All and expected-operand errors) have empty text and a zero-width position located between the surrounding tokens.",
  "every input",
  "all inputs",
  "parse/parselet.rs", "tokenize/token.rs: Token::at_start, Token::at")
p("A node's position is the hull of its leaves",
  "The source span of every node starts at the start of its first leaf and ends at the end of its last leaf, contains the spans of all its descendants, and consecutive siblings' spans are adjacent.",
  "every input and every node of its tree",
  "all inputs and nodes",
  "cst.rs: Cst::get_source", "source.rs: Span::between")
p("Recovery of unterminated groups keeps every leaf",
  "Rewriting an unterminated group keeps all of the group's tokens. (The code violates this: leaves after the guessed end are dropped.)",
  "every input with an unterminated group",
  "all inputs",
  "error.rs: reparse_unterminated_group_node", "parse_cst.rs: reduce_unterminated_group")
p("Parsing bytes never aborts",
  "parse_bytes_cst never panics on any byte input. (The code violates this: invalid UTF-8 combined with an unterminated group panics.)",
  "every byte sequence",
  "all inputs",
  "parse.rs: ParserSession::reduce_unterminated_group", "lib.rs: parse_bytes_cst_seq")
# --- after parsing ----------------------------------------------------------
p("Aggregation removes exactly the trivia",
  "aggregate_cst removes every whitespace, newline and comment leaf and nothing else: the remaining leaves are the non-trivia leaves in their original order; aggregating again changes nothing.",
  "every concrete syntax tree the parser can build",
  "all trees",
  "abstract_cst.rs: aggregate_cst")
p("Abstraction never aborts on parser output",
  "abstract_cst never panics on the aggregated output of the parser. (The code violates this: -() and a>> panic.)",
  "every input",
  "all inputs",
  "abstract_cst.rs: abstract_, negate, parenthesizedIntegerOrRealQ")
p("Chained inequalities keep their operands and operators",
  "Abstracting a chain of inequalities keeps every operand exactly once in order, and yields a flat call of one operator exactly when all operators of the chain denote the same inequality.",
  "every chain length and operator choice",
  "unbounded chains",
  "abstract_cst.rs: abstractInfixInequality, simplifyInfixInequality")
p("Operators and their symbols correspond one to one",
  "For every operator enumeration, converting an operator to its symbol and back gives the same operator.",
  "every operator of all nine enumerations",
  "table-wide",
  "parse/operators.rs: Operator::to_symbol, try_from_symbol")
p("Splitting text into lines is lossless",
  "Splitting text into lines with their terminators and concatenating the pieces gives back the text; no line contains a terminator, and every separator is LF, CR or CR LF.",
  "every text",
  "all texts",
  "error.rs: split_lines_keep_sep")
p("Splitting into chunks is lossless",
  "Splitting a sequence between adjacent elements wherever a predicate on the pair fails, then concatenating the chunks, gives back the sequence; all chunks are non-empty and the split points are exactly where the predicate fails.",
  "every sequence and predicate",
  "all sequences",
  "utils.rs: split_by_pairs", "error.rs: split_into_chunks")
p("Span relations",
  "Containment of line/column positions in spans agrees with lexicographic order; span intersection is symmetric and detects a common position. (overlaps is not symmetric.)",
  "every pair of spans",
  "unbounded positions",
  "source.rs: LineColumnSpan::contains, overlaps, CharacterSpan::intersects, contains_span")
p("Visiting with the identity changes nothing",
  "map_visit with a function that returns its argument returns the same tree, and visit calls the callback exactly once for every node, parents before children.",
  "every concrete syntax tree",
  "all trees",
  "cst/visit.rs: Cst::visit, map_visit")
p("Tokenizing reports encoding errors exactly on bad input",
  "When tokenizing bytes ends, an encoding error has been recorded if and only if the input is not well-formed UTF-8 or contains U+FEFF, whichever parts of it were skipped, looked at in advance or read twice.",
  "every byte sequence and all options",
  "all byte sequences; the flag lives outside the rewindable reader state",
  "lib.rs: tokenize_bytes", "read.rs: Reader", "tokenize/tokenizer.rs: Tokenizer_nextToken")
p("Operators are recognised by the longest match",
  "Where a punctuation character is not the begin of a comment or of a number, the next token is the longest operator of the language written there, with exactly its text; runs of percent signs are one token.",
  "every position of every input where no escaped ASCII character follows within two characters, every operator character and every tokenizer policy",
  "what follows the operator is arbitrary",
  "tokenize/tokenizer.rs: Tokenizer_handleColon, ..., Tokenizer_handleCaret, Tokenizer_nextToken")
p("Names are one token",
  "A name made of letters, digits and dollar signs, with any number of contexts and possibly starting with a context mark, followed by something that cannot continue it, is exactly one symbol token with that text.",
  "every name of every length and number of contexts, every following text, every tokenizer policy",
  "names are unboundedly long",
  "tokenize/tokenizer.rs: Tokenizer_handleSymbol, Tokenizer_handleSymbolSegment")
p("Text is cut into lexemes",
  "When a text is a concatenation of white space, operators, names, number literals, strings, linear syntax and comments, with escaped characters and line continuations in names, strings and linear syntax and for operators of one character, none of which the text behind it could continue, tokenizing it gives exactly these, with their texts and kinds; there is at most one such way to cut a text.",
  "every text that is made of lexemes of the specified forms, of any length",
  "unboundedly many and long lexemes in any order",
  "tokenize/tokenizer.rs: Tokenizer_nextToken", "lib.rs: tokenize_bytes")
p("Written expressions are parsed as the trees they stand for",
  "When expressions made of names, numbers, strings, patterns, slots, brackets, calls, prefix, postfix, binary and repeated infix operators, juxtaposition, semicolons, spans a;;b;;c with or without their operands, a~f~b, tag assignments and unsetting are written, with parentheses where the precedences require them and with any blanks and comments between the tokens, parsing succeeds and, blanks apart, returns exactly the trees of these expressions; in particular the reading is unique.",
  "every expression of any depth and size over all operators of the tables, every way of writing it, every setting and convention of positions",
  "unboundedly many expressions and combinations of operators",
  "lib.rs: parse_bytes_cst_seq", "parse.rs: ParserSession::parse_climb", "parse/parselet.rs: parse_prefix, parse_infix, parse_loop")
p("A line break ends a top-level expression",
  "At the top level a line break behind a complete expression ends it: the trees of a text of several lines each of which is an expression are those of the lines.",
  "every sequence of lines that are written expressions",
  "all expressions, all lines that may follow",
  "parse/parselet.rs: InfixOperatorParselet::parse_loop, TimesParselet", "parse.rs: current_token, parse_climb")
p("The abstract syntax of a written expression is its meaning",
  "The abstract syntax of a text in which expressions are written denotes these expressions in full form: every operator is a call of its symbol with its operands in their order; a-b is Plus[a, Times[-1, b]], a/b is Times[a, Power[b, -1]], -5 is a number, f'' is Derivative[2][f], a[[b]] is Part[a, b], f@x and x//f are f[x], a~f~b is f[a, b], x_h is Pattern[x, Blank[h]], #1 is Slot[1], %% is Out[-2], a; is CompoundExpression[a, Null], a;; is Span[a, All] and ;;b is Span[1, b], x=. is Unset[x], parentheses disappear, and chains of comparisons are flat calls or Inequality, those between vectors being kept apart from the others; nothing else is rearranged, dropped or added.",
  "every expression of any depth and size over the operators of the grammar of C48, every way of writing it, every setting of the quirks",
  "unboundedly many expressions; every operator meets every other as an operand",
  "lib.rs: parse_bytes_ast_seq", "abstract_cst.rs: abstract_, abstractPlus, flattenTimes, negate, abstractInfixInequality, processInfixBinaryAtQuirk", "abstract_cst/abstract_call_node.rs")
p("What is left open is cut off before the next statement",
  "A string, comment or file name without end, and a group without closer, end at the end of the last line with text before the next line that looks like the beginning of a statement: a directive such as Begin[...], an assignment or definition, a closing bracket with an assignment, or an annotation comment. Terminated tokens are unchanged, the rewritten ones keep their kind and beginning, and of a group exactly the tokens that begin before that place, or there, are kept.",
  "every text, every group and every unterminated token, with positions given by line and column",
  "any number of lines and of statements on them; whether a line begins a statement depends on all of its tokens",
  "error.rs: reparse_unterminated_tokens, reparse_unterminated_token_error_node, reparse_unterminated_group_node, first_chunk_and_last_good_line, split_into_chunks, is_new_statement_line")
p("What is sent over a link is one complete expression",
  "For every tree, issue, container and result of parsing or tokenizing, the calls the library makes on a link amount to exactly one complete expression, the one documented for it; if it cannot be expressed, the library panics. If the user aborts the evaluation in between, what is sent is still one complete expression, in which some elements of sequences of nodes are replaced by $Aborted.",
  "every tree, issue, container and result, every moment of aborting, with positions written for either version of the interface",
  "all trees of any shape; the announced numbers of arguments must match at every node and at every moment of aborting",
  "crates/codeparser-wll/src/convert_wstp.rs: WstpPut, put_op", "crates/codeparser-wll/src/convert_wstp.rs: ParseResult")
p("Trees are read back from their expressions",
  "A tree that is sent to the Wolfram Language and comes back as an expression is read as the same tree.",
  "every concrete syntax tree whose positions fit the kind of its container and 32 bits",
  "unboundedly many trees; writer and reader are separate programs",
  "crates/codeparser-wll/src/from_expr.rs: FromExpr, from_expr_with_container_kind", "crates/codeparser-wll/src/convert_wstp.rs")
p("Issues and containers are read back from their expressions",
  "An issue, or a container with its trees and data, that is sent to the Wolfram Language, evaluated there and comes back is read as the same issue or container.",
  "every issue and container",
  "all trees, issues, additional data and combinations of them",
  "crates/codeparser-wll/src/from_expr.rs: FromExpr, ContainerBody, Metadata, Source", "crates/codeparser-wll/src/convert_wstp.rs")
p("What parsing gives can be sent and read back",
  "Whatever bytes are parsed, the result can be sent as one expression with the trees, or with the reason that there are none exactly if the encoding is unsafe. The trees of a text are read back as the same trees, up to the kinds of newlines.",
  "every byte sequence and option; for reading back, every text so short that positions fit in 32 bits",
  "all byte sequences; the positions of nodes are computed from those of their first and last tokens, which error recovery rewrites",
  "lib.rs: parse_bytes_cst_seq", "crates/codeparser-wll/src/convert_wstp.rs", "crates/codeparser-wll/src/from_expr.rs: FromExpr", "cst.rs: get_source")
p("Displayed characters read back as themselves",
  "Displaying a character of a text, plainly or in the graphical form used in the descriptions of issues and in the replacements they offer, never aborts. The graphical form has only printable ASCII characters and, placed in any text, reads as the same character; a character written with an escape is displayed with this kind of escape and reads as exactly itself; a character written without an escape is displayed as it is written.",
  "every Unicode scalar value, and every character that can be read from any bytes, with the text it is placed in",
  "over a million characters, and every escape of each of them",
  "source.rs: Display for SourceCharacter, graphicalString", "read/wl_character.rs: Display for WLCharacter, fromDigit", "byte_encoder.rs: encodeBytes", "generated/long_names_registration.rs: CODEPOINT_TO_LONGNAME_MAP")
p("Characters are tokens however they are written",
  "A character that is a token by itself (an operator outside of ASCII, white space, a line break, a bracket, a comma, a character of linear syntax, one that means nothing) is a token of the kind that belongs to the character, whether it is encoded in UTF-8 or written as any escape, and with any line continuations in front of it. Every text that is not badly encoded and has no escaped surrogate has a next character.",
  "every text, every character and every way to write it",
  "thousands of characters with many spellings each, behind any number of line continuations",
  "tokenize/tokenizer.rs: Tokenizer_nextToken, Tokenizer_nextToken_uncommon, Tokenizer_handleNakedMBLinearSyntax, Tokenizer_handleMBPunctuation", "read/character_decoder.rs", "tokenize/tokenizer.rs: Tokenizer_nextWLCharacter", "long_names.rs")
p("Names, strings and linear syntax are one token",
  "A name is one token that reaches as far as its letters, digits and backquotes do, whatever letters it is made of and however they are written; a string reaches to its closing quote; linear syntax reaches from \\( to the \\) that closes it. Without the closing sign the rest of the text is one error token.",
  "every text, every name, string and nested linear syntax, with escapes and line continuations anywhere",
  "unboundedly long tokens and deep nesting; every spelling of every character",
  "tokenize/tokenizer.rs: Tokenizer_handleSymbol, Tokenizer_handleSymbolSegment, Tokenizer_handleString, Tokenizer_handleMBLinearSyntaxBlob")
p("Tags behind ::",
  "Where a tag is expected, the next token is a string or a word (called a string), and an error that takes nothing of the text if something else is there.",
  "every text and position",
  "every text can follow ::",
  "tokenize/tokenizer.rs: Tokenizer_nextToken_stringifyAsTag, Tokenizer_handleString_stringifyAsTag")
p("Names of files behind <<, >> and >>>",
  "Where the name of a file is expected, the next token is the name up to the first character that can not be in it, brackets included if they are balanced and have no white space in them; otherwise it is a string, white space or a line break, or an error.",
  "every text and position",
  "every text can follow <<; brackets nest without bound",
  "tokenize/tokenizer.rs: Tokenizer_nextToken_stringifyAsFile, Tokenizer_handleString_stringifyAsFile, Tokenizer_handleFileOpsBrackets")
p("Backslashes that start no escape",
  "A backslash that starts no escape is reported as an error token that covers what looks like the rest of an escape behind it: a name in brackets, or digits behind \\:, \\., \\| and an octal digit, or else one character.",
  "every text and position",
  "every text can follow a backslash",
  "tokenize/tokenizer.rs: Tokenizer_handleUnhandledBackslash")
p("Looking for issues does not change the tokens",
  "Tokenizing with issues and tracked positions gives the same tokens, with the same encoding errors, as tokenizing without, and does not abort where tokenizing without does not. The same holds for each single token the parser asks for; only behind four operators does looking for issues look one character further, and then it aborts only where the next token cannot be read anyway.",
  "every byte sequence, every combination of options, every policy and position, and every function for the distance of names",
  "all byte sequences; issues are formatted for characters that may not be displayable, and need positions in front of the current one",
  "lib.rs: ParseOptions.check_issues, compute_oob", "read/byte_decoder.rs", "read/character_decoder.rs", "tokenize/tokenizer.rs: Tokenizer_nextToken, add_unexpected_char_issue", "utils.rs: certainCharacterReplacementActions")
p("Issues are about pieces of the text",
  "The positions of every issue, and of every code action offered for it, are the beginning and the end of a piece of the text, and every tracked position (line continuations, embedded newlines and tabs) is that of the beginning of a token or of the end.",
  "every byte sequence and option, every issue and action",
  "all byte sequences; positions are computed backwards by subtracting one from a column, and forwards by adding one",
  "issue.rs: Issue, CodeAction", "source.rs: Location::previous, Location::next, Span::new", "tokenize/tokenizer.rs: TrackedSourceLocations", "read/character_decoder.rs")
p("Broken encodings are reported",
  "If issues are looked for, a fatal issue about the encoding is reported exactly if the text is not UTF-8 or contains a byte order mark.",
  "every byte sequence and option",
  "all byte sequences; bytes are read several times, in comments, escapes, line continuations and by looking ahead",
  "read/byte_decoder.rs: ByteDecoder_incompleteByteSequence, ByteDecoder_straySurrogate, ByteDecoder_bom", "read.rs: Reader::addIssue")
p("Issues and tracked positions only if asked for",
  "Without check_issues no issue is reported, and without compute_oob no position is tracked.",
  "every byte sequence and the other options",
  "all byte sequences; many places report issues, each with its own test of the option",
  "lib.rs: ParseOptions.check_issues, compute_oob", "tokenize/tokenizer.rs", "read/character_decoder.rs", "read/byte_decoder.rs")
p("Looking for issues does not change the tree",
  "Parsing with issues and tracked positions gives the same tree, with an encoding error in the same cases, as parsing without, and aborts only where parsing without aborts; the exception are texts with the escape of a surrogate, which may abort.",
  "every byte sequence, every combination of options, and every function for the distance of names",
  "all byte sequences; the parser goes back and reads tokens again, and looking for issues reads further ahead",
  "parse.rs: ParserSession, parse", "parse/parselet.rs", "lib.rs: ParseOptions.check_issues, compute_oob, parse_bytes_cst_seq", "error.rs: is_new_statement_line")
p("The issues and tracked positions of a parse are about pieces of the text",
  "Every issue in the result of a parse, and every code action offered for it, is about a piece of the text, and every tracked position is one of the text. No issue and no position is given twice, fatal issues are apart from the others, and there are at most ten of them.",
  "every byte sequence and option, every issue, action and position of the result",
  "all byte sequences; the same characters are read many times by a parser that goes back",
  "lib.rs: ParseResult, create_parse_result", "read.rs: Reader::addIssue", "parse.rs: ParserSession", "tokenize/tokenizer.rs: TrackedSourceLocations", "issue.rs: Issue, CodeAction")
p("A parse reports broken encodings",
  "If issues are looked for, the result of a parse has an encoding error exactly if the text is not UTF-8 or contains a byte order mark, and then a fatal issue about the encoding, unless there are ten other fatal issues. A parse without fatal issues means that the encoding is sound.",
  "every byte sequence and option",
  "all byte sequences; the broken bytes may be anywhere, also where the parser goes back or looks ahead",
  "lib.rs: ParseResult", "read/byte_decoder.rs", "read.rs: Reader::addIssue", "parse.rs: ParserSession")
p("A parse gives issues and tracked positions only if asked for",
  "Without check_issues the result of a parse has no issues, and without compute_oob no tracked positions.",
  "every byte sequence and the other options",
  "all byte sequences; many places report issues, each with its own test of the option",
  "lib.rs: ParseOptions.check_issues, compute_oob, create_parse_result", "tokenize/tokenizer.rs", "read/character_decoder.rs")
p("Every issue is justified by the text",
  "Every issue that tokenizing or parsing reports holds of the text at its source: where an unusual or non-ASCII character is reported there is one, where broken bytes, a surrogate or a byte order mark are reported there are such bytes, where an escape is reported as wrong the text behind the backslash is no escape, and a name that is reported as unknown is unknown. The actions offered are about that piece of text, and the names they offer exist.",
  "every byte sequence and option, every issue and every action offered for it",
  "all byte sequences; characters are reported where they are read, which is many times and at positions computed backwards",
  "issue.rs: Issue, CodeAction, IssueTag", "read/byte_decoder.rs", "read/character_decoder.rs: CharacterDecoder_handleLongName, CharacterDecoder_handleUnhandledEscape, check_strange_syntax_issue", "tokenize/tokenizer.rs: add_unexpected_char_issue", "utils.rs: certainCharacterReplacementActions")
p("Offered corrections repair what they are offered for",
  "Applying an action offered for a backslash that starts no escape gives a text that has an escape at this place, unless the action leaves places to fill in. The first action offered for a character beyond ASCII replaces it by printable ASCII characters that are read as this character wherever they are written.",
  "every byte sequence and option, every such issue and action",
  "all byte sequences, all characters and all long names",
  "issue.rs: CodeAction", "read/character_decoder.rs: CharacterDecoder_handleLongName, CharacterDecoder_handleUnhandledEscape", "read/byte_decoder.rs: ByteDecoder_nonASCIIWarning", "utils.rs", "read/wl_character.rs: graphicalString")
p("What is fatal",
  "An issue is fatal exactly if it is about a broken encoding or about a backslash that starts no escape. A text of characters other than backslashes and byte order marks has no fatal issues.",
  "every byte sequence and option",
  "all byte sequences; every place that reports issues chooses a severity",
  "issue.rs: Severity", "lib.rs: ParseResult.fatal_issues", "read/character_decoder.rs", "read/byte_decoder.rs")
p("No unusual character and no broken encoding is missed",
  "If issues are looked for (in the encoding mode Normal), every character of the text that is not a printable ASCII character, a tab or the end of a line (and not a vertical tab, form feed or U+F3A2) has an issue whose source is exactly this character, and every place where the bytes encode no character has a fatal issue that starts there, as long as there are fewer than ten fatal issues; also inside strings, comments, names of files and first lines.",
  "every byte sequence, every position in it, every first-line behaviour and convention",
  "all byte sequences and positions; the parser reads most characters several times and others only while looking ahead or going back",
  "lib.rs: ParseOptions.check_issues, ParseResult.non_fatal_issues, fatal_issues", "read/byte_decoder.rs: ByteDecoder_nonASCIIWarning, ByteDecoder_strangeWarning, ByteDecoder_incompleteByteSequence", "read.rs: Reader::addIssue", "tokenize/tokenizer.rs", "parse.rs: ParserSession")
p("The iterators give everything once and then end for good",
  "Iterating over the source characters of a text gives exactly its characters, CR LF as one. Iterating over its Wolfram characters gives exactly the characters its escapes and other characters stand for; every text without a numerically spelled surrogate consists of such. Iterating over its tokens gives exactly the tokens tokenize returns. After the last item the iterators give nothing, however often they are called again.",
  "every byte sequence, every option, every number of further calls",
  "all inputs and all sequences of calls; the token iterator uses a reading function that looks ahead and behind its back, and calls after the end read beyond the input",
  "iter.rs: source_chars, wolfram_chars, tokens, SourceChars::next, WolframChars::next, Tokens::next")
p("Printed trees tell which trees they are",
  "Printing the trees of a text never aborts, and two different trees are printed differently (up to the two kinds of newlines, which have the same symbol). What is printed is an expression that reads back as the tree.",
  "every text, every first-line behaviour, every pair of trees",
  "all trees; texts of tokens are printed between quotes without escaping",
  "fmt_as_expr.rs: FmtAsExpr, put_op", "bin/main.rs: handle")
p("How positions are counted does not influence what is read",
  "Reading the same bytes with another tab width, and with positions as lines and columns or as character indices, gives the same tokens and the same trees: the same kinds and texts of tokens, the same nodes, and the same encoding error. Only positions differ, and how far error recovery cuts tokens without end and groups without closer. Without unterminated parts the trees, and the abstract syntax trees made from them, are equal up to positions.",
  "every byte sequence, every pair of tab widths and conventions, every first-line behaviour",
  "all byte sequences and options; positions are kept in the same state the reader and the parser decide by, and are saved and restored with it",
  "lib.rs: ParseOptions.tab_width, ParseOptions.src_convention", "source.rs: SourceConvention", "read/byte_decoder.rs: SourceManager", "tokenize/tokenizer.rs", "parse.rs: ParserSession", "error.rs")
p("What comes before does not influence what is read",
  "If the first tokens (or the first top-level trees) of a text make up its beginning, then reading only what follows them gives exactly the other tokens (trees): the same kinds, texts and nodes, up to positions and up to how far error recovery cuts tokens without end and groups without closer. So tokenizing can be resumed behind any token and parsing behind any top-level tree. Without unterminated parts the abstract syntax trees of what follows are the last ones of the whole text, up to positions.",
  "every byte sequence without encoding error, every place between two tokens or two top-level trees, every pair of tab widths and conventions",
  "all texts and all places; the tokenizer and the parser keep a mutable state (position, stacks, saved marks) from one expression to the next",
  "lib.rs: tokenize_bytes, parse_bytes_cst_seq", "tokenize/tokenizer.rs", "parse.rs: do_parse, ParserSession", "read/byte_decoder.rs")
p("Positions in abstract syntax trees",
  "In the abstract syntax trees of a text without unterminated parts, the position of a node encloses the positions of everything in it, and of its issues; every position begins where a token begins and ends where a token ends; and the positions in one tree come before those in the next. The position of a tree goes from the first to the last token of the expression it was made from, without the parentheses around it; only derivatives written with quotes have none.",
  "every byte sequence, every option and setting for which abstract syntax trees are returned",
  "all expressions; abstraction regroups, renames and invents nodes, and computes positions from pairs of children in more than fifty places",
  "abstract_cst.rs: abstract_cst, abstract_, negate, processPlusPair, abstractTimes_InfixNode, abstractInfixInequality, simplifyInfixInequality, abstractInfixTilde, abstractGroupNode", "abstract_cst/abstract_call_node.rs", "lib.rs: parse_bytes_ast_seq")
p("Abstraction ends",
  "Making abstract syntax from a concrete tree always ends, with a result or with one of the aborts of the code, and so does the whole way from bytes to abstract syntax trees. The abstract syntax of a tree is made only from that of smaller trees.",
  "every concrete tree, every setting, every byte sequence",
  "all trees of all sizes; abstraction calls itself on parts, on parts of parts, on negated and flattened products and on trees it has put together",
  "abstract_cst.rs: abstract_cst, abstract_, negate, flattenTimes, Negated::into_ast", "abstract_cst.rs: aggregate_cst", "lib.rs: parse_bytes_ast_seq")
p("How abstract syntax is put together",
  "The abstract syntax of message names, reading and writing of files, integrals, named slots, double negation, tests of patterns, infix application with ~, groups, calls and parts, and of everything that is wrong (missing brackets, naked brackets, misplaced commas, missing operators) is put together from the abstract syntax of the operands or elements, each in its place, none lost, none twice: with the symbol, the position from the first to the last token, and the issues, which say how strange the head of a call is, given by a list of rules that determines the result.",
  "every concrete tree of these kinds, with any parts, every setting",
  "all trees; each kind of node has its own code, which picks children by their index",
  "abstract_cst.rs: abstract_, abstractMessageName, abstractInfixTilde, abstractGroupNode, abstractGroupNode_GroupMissingCloserNode, abstractNot2, escapeString_of_abstractFileString", "abstract_cst/abstract_call_node.rs: abstract_call_node")
p("Abstraction loses no names and no strings",
  "The names and strings of a text, and the places where an operand is missing, are exactly the symbols and strings with a position in its abstract syntax trees: each occurs once, with its position and its text (constants like \\[Pi] with their name, tags, slots and files between quotes), and no other has a position. Three kinds of words may be left out: the symbol for commas when it is written out, with the quirk InfixBinaryAt an operator's name in front of @, and words between parentheses around more than one expression.",
  "every byte sequence, every option and setting for which abstract syntax trees are returned",
  "all expressions; abstraction reorders, flattens, negates and regroups operands in more than fifty places, each of which picks children by their index",
  "abstract_cst.rs: abstract_cst, abstract_, negate, flattenTimes, processPlusPair, processInfixBinaryAtQuirk, selectChildren, simplifyInfixInequality, abstract_replace_token", "abstract_cst/abstract_call_node.rs", "lib.rs: parse_bytes_ast_seq")
p("What the functions of the library answer",
  "A call of a function of the library that parses, tokenizes, reads one leaf or makes a safe string is answered with exactly one complete expression: the trees or tokens of the given bytes under the given settings (convention, tab width, first line, quirks, mode), the encoding error if there is one, and the issues and tracked positions, each in its place. The number of the session has no influence. Calls whose arguments are not in order are not answered but end in a panic, and so do those for files that cannot be read. A file is treated like its contents. (Ending a session never succeeds: every call of that function panics.)",
  "every function of the library but abstraction, every list of arguments, every byte sequence, every setting, every moment of abort",
  "all arguments and all texts; answers are written piece by piece to a link while the caller may abort",
  "crates/codeparser-wll/src/lib.rs: ConcreteParseBytes_LibraryLink, ConcreteParseFile_LibraryLink, TokenizeBytes_LibraryLink, TokenizeFile_LibraryLink, ConcreteParseLeaf_LibraryLink, SafeString_LibraryLink, TokenIsEmpty_LibraryLink, RoundTripTest_LibraryLink, CreateParserSession_LibraryLink, DestroyParserSession_LibraryLink, read_parse_options_from_link, read_input_bytes, read_session_from_link", "crates/codeparser-wll/src/convert_wstp.rs", "lib.rs: parse_to_token, safe_string, StringifyMode")
p("Abstraction over the link",
  "The front end parses a text through one function of the library, and has each tree turned into abstract syntax by another. The two steps compose: an aggregated tree of a text that is sent, and sent back to be abstracted with some quirks and the name of a kind of text container, is answered with one complete expression, the abstract syntax that abstracting the tree at once with these quirks gives; the call panics exactly if abstracting it aborts. So the trees of a text give, one by one, what parsing the text to abstract syntax gives. Calls whose arguments are not in order panic.",
  "every text whose positions fit 32 bits, every tree of it, every kind of text container, every association of quirks, every moment of abort; every list of arguments",
  "all texts and trees; a tree is written piece by piece, read back by different code, and has to be the same to abstraction",
  "crates/codeparser-wll/src/lib.rs: Abstract_LibraryLink", "crates/codeparser-wll/src/from_expr.rs: from_expr_with_container_kind, QuirkSettings::from_expr, ContainerKind::from_expr", "crates/codeparser-wll/src/convert_wstp.rs", "abstract_cst.rs: abstract_cst")
p("Abstract syntax can always be sent",
  "If making abstract syntax from a text does not abort, sending it does not panic: every string in it is a text, every position in it and in its issues can be written, and what arrives is a list of complete expressions, one for each tree. The same holds for a single tree that is sent to the library to be abstracted. So for a text without errors and without empty parentheses every such call is answered.",
  "every text, every option, setting and convention of positions, every quirk, every moment of abort",
  "all texts; strings and positions are computed in more than fifty places, and writing one that is not valid UTF-8, or a pair of positions that do not fit together, panics",
  "abstract_cst.rs: abstract_cst, abstract_, escapeString_of_abstractSymbolString, escapeString_of_abstractFileString, negate", "source.rs: between", "crates/codeparser-wll/src/convert_wstp.rs: Ast::put, AstMetadata::put", "crates/codeparser-wll/src/lib.rs: Abstract_LibraryLink")
p("Full form is read back",
  "Every expression made of symbols, numbers, strings and calls can be written in full form, as f[x, y], and its abstract syntax then is this expression: nothing is simplified, flattened, renamed or reordered, whatever the symbols are. Several expressions on lines of their own are read back in their order, and different expressions have different full forms. An expression written with operators (C50) has the same abstract syntax as its full form, positions apart. Four things are not read back: the names of constants such as π, which become Pi, a number with a minus sign as the head of a call, -0, which becomes 0, and a call of CodeParser`Comma, the symbol the code has for commas, as the only argument of a call, which is taken for its arguments.",
  "every expression of any depth and width, every option and quirk (flattenTimes off)",
  "all expressions; abstraction recognizes operators by the symbols it makes for them, so any of several hundred names could be mistaken for one",
  "lib.rs: parse_bytes_ast_seq", "tokenize/tokenizer.rs: Tokenizer_handleSymbol, Tokenizer_handleNumber, Tokenizer_handleString", "parse/parselet.rs: CallParselet, CommaParselet", "abstract_cst.rs: abstract_, abstractGroupNode, negate", "abstract_cst/abstract_call_node.rs: abstract_call_node")
p("White space and comments do not matter",
  "Blanks, tabs, line breaks and comments can be put anywhere between the names, numbers, strings, brackets and commas of an expression in full form, in any number and also around it, without changing the expression its abstract syntax denotes. Only outside of all brackets a line break may not be in front of an opening bracket, because it ends the expression (C49).",
  "every expression in full form (C85), every choice of white space and comments, every option and quirk (flattenTimes off)",
  "all expressions and layouts; each of the parse functions skips white space and comments by itself, and abstraction has to ignore them in every node",
  "lib.rs: parse_bytes_ast_seq", "tokenize/tokenizer.rs: Tokenizer_handleComment", "parse/parselet.rs: CallParselet, CommaParselet", "agg.rs", "abstract_cst.rs: abstract_")
p("Parentheses group",
  "When the operands of every operator are in parentheses, the operators are applied to exactly these operands, whatever their precedences: the abstract syntax of (a)->(b) and its like denotes the symbol of the operator applied to what is in the parentheses, at any depth, also inside of calls f[...] and lists {...}, and more parentheses do not change it. No such text denotes two expressions. The operators are the 40 ASCII operators between two operands that stand for one symbol each, those before and behind one operand (except for primes), and those that stand for more or something else: (a)-(b) denotes Plus[a, Times[-1, b]], (a)/(b) denotes Times[a, Power[b, -1]], (f)@(x) and (x)//(f) denote f[x], (a)~(f)~(b) denotes f[a, b], (a);(b) CompoundExpression[a, b], (a); CompoundExpression[a, Null], (a);;(b) Span[a, b], (a)/:(b)=(c) and (a)/:(b):=(c) TagSet[a, b, c] and TagSetDelayed[a, b, c], !!(a) Not[Not[a]], and a number behind a minus sign gets the sign. A file with one such expression per line denotes them in their order, with either end of line, unless a line begins with a sign, which can continue the line before.",
  "every expression built with these operators from expressions in full form (C85), to any depth, every option and quirk (flattenTimes off)",
  "all nestings of operators: the precedence loop, the check for sequences of the same operator and the special cases of abstraction (sums, products, comparisons) must all stop at a parenthesis",
  "lib.rs: parse_bytes_ast_seq", "parse/parselet.rs: GroupParselet, BinaryOperatorParselet, InfixOperatorParselet", "tokenize/tokenizer.rs", "abstract_cst.rs: abstract_")
with open(os.path.join(os.path.dirname(__file__), "..", "properties.jsonl"), "w") as f:
    for q in P:
        f.write(json.dumps(q, ensure_ascii=False) + "\n")
print(len(P))
