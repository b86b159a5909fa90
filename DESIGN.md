# A machine-checked model of WolframResearch/codeparser

## Approach

The Rust crate `crates/wolfram-parser` is transcribed, function by function,
into total computable Lean 4 functions (`lean/Verif/Model/*`). Properties are
stated in `lean/Verif/Props/*` against small independent specifications
(`lean/Verif/Spec/*`) and proved for all inputs.

Modelling conventions (each definition's comment gives its source lines):

* The reader's `(input, offset)` pair is represented by the remaining suffix of
  the input. A mark is a saved reader state, `seek` restores it. The unsafe
  character encoding flag lives outside the mark, as in the code.
* `&mut self` methods become functions returning the new state. A panic, failed
  assertion, `unwrap`, `todo!` is the error value `Err.panic site`. Loops and
  the parser's mutual recursion take fuel; running out is the error `Err.fuel`,
  and we prove it never happens with the fuel the entry points supply.
* `u32` line/column counters are natural numbers (the code saturates at 2^32-1).
* Reported issues (warnings and code actions) do not influence any other
  output. They are modelled only as the issue log itself (C09); the tokenizer
  model does not produce them. `check_issues`, `compute_oob` and the embedded
  newline/tab/line-continuation bookkeeping that only feed issues and
  out-of-band data are therefore dropped.
* The build modelled is a release build (`debug_assert!` is not checked) with
  `check_issues` and `compute_oob` off.
* Cargo features are the defaults: `COMPUTE_SOURCE` on; `FAST_STRING_SCAN`,
  `CHECK_ABORT` off.

## Plan per property

Every row names the code that is modelled and the proof method. "Spec" is the
separate specification the theorem is stated against.

| id | model | proof |
|---|---|---|
| C01–C03 | `read/byte_decoder.rs` complete | Spec: UTF-8 encoding written out independently (`Spec/Reader`); induction on the character list; case analysis on the byte table |
| C04–C07 | `SourceManager`, both conventions | induction on the number of characters read, ghost count of terminators |
| C08 | mark/seek/peek over the reader | by unfolding, for every reading function |
| C09 | `addIssue` | invariant by induction over the history |
| C10–C13 | `read/character_decoder.rs` complete, long-name table generated from the source | case analysis; digit-string evaluation; `decide +kernel` over the complete table |
| C14 | binary search | generic correctness for sorted arrays + sortedness of the tables |
| C15, C16 | all token kinds generated from the source | `decide +kernel` over the complete finite enumeration |
| C17–C21, C24 | `tokenize/tokenizer.rs` complete | weakest-precondition calculus (`Proofs/Wp`) for the tokenizer monad; invariant "the state is reachable by reading source characters"; progress of every handler |
| C22 | the number handlers of the tokenizer | Spec: a number literal as a record of its parts and its rendering; reading the rendering followed by a delimiter gives one token |
| C23 | `next_token`/`tag` with the group stack | the tokenizer's newline handlers; Spec: `Spec/Newline`, the tokens inside and outside of the brackets of a tree; invariant of every parselet about the newlines of the trees on the stack |
| C25, C35 | tokenizer and parser | panics characterised as an explicit `Err.panic`; contract of every handler/parselet excludes each site under the stated hypotheses; concrete witnesses for the rest |
| C26–C28 | `parse.rs`, `parse/parselet*.rs`, `parse_cst.rs`: a fuelled interpreter of parselets over the node/context/group stacks (`Model/Parser`) | one induction on fuel with a per-job contract (leaves pushed + remaining input = input, stack heights restored); measure for termination (C27) |
| C29, C30, C32 | the same, plus recovery (`Model/Recover`) | a shape predicate `Form` of trees, preserved by every parselet and by recovery; closed under sub-trees |
| C31 | the infix/binary parselets and precedence table | Spec: `Spec/Grouping`, the tree of an operator chain is well-grouped; uniqueness of well-grouped trees of a token sequence |
| C33 | `Cst::get_source` | structural induction from contiguity |
| C34 | `parse/error.rs` recovery | what is kept of a group is a prefix of its tokens; subsequence relation between leaves before and after; concrete witnesses |
| C36, C43 | `agg.rs`, `cst/visit.rs` | structural induction on trees |
| C37 | `abstract_cst.rs`, `abstract_call_node.rs` complete | `Good` trees (what parse + aggregate produce) never reach a panic site; induction on fuel with the interpreter's jobs; fuel independence (`run_unique`) |
| C38 | `abstractInfixInequality` | Spec: `Cut`, a partition of the chain; induction on the chain |
| C39 | operator tables generated from the source | complete enumeration |
| C40, C41 | `split_lines_keep_sep`, `split_by_pairs` | induction |
| C42 | span relations | linear arithmetic |
| C45, C46 | the operator and symbol handlers of the tokenizer | Spec: `Spec/Lex`, table of operators and grammar of names; exact evaluation of the handlers on bytes (`Proofs/Lex1`–`Lex4`) |
| C47 | the token loop | Spec: `Spec/LexText`, cutting a text into lexemes; the loop invariant uses C22, C45, C46, C57, C58 and C61 |
| C48, C49 | the parser on texts without errors | Spec: `Spec/Syntax`, expressions, how they are written, when parentheses are needed, and their trees; mutual induction on expressions in continuation-passing style: from any parser state in which the lexemes of an expression are next, the parser pushes its tree and goes on (`Proofs/Syntax1`–`Syntax8`) |
| C50 | abstraction of written expressions | Spec: `Spec/Meaning`, full forms and the full form an expression of `Spec/Syntax` denotes, depending on where it stands; the aggregated trees of expressions (`Proofs/Meaning1`), for each operator what abstraction makes of it in every role (`Meaning2`–`Meaning5`, `Meaning8`), mutual induction on expressions (`Meaning6`), absence of panics through C37 (`Meaning7`) |
| C51 | recovery | Spec: `Spec/Recovery`: which tokens at the beginning of a line begin a statement (`Begins`), and the lines between which something is cut off (`CutAt`). `isStatement` decides `NewStatement` (the nested call of `tokenize` does not depend on what is asked about further lines, since there is only one); `firstChunk` and `lastGood` find the lines of `CutAt`; `overlaps` keeps the tokens that begin before the end of the last line. |
| C44 | the encoding flag across marks and seeks | the invariant `R.keep`/`R.blame` of every reading function |
| C52 | writing to a link | `Model/Link`, `Model/Put`: a writer is a function from the answers to "did the user abort?" to what is put on the link. Spec: `Spec/Link`, the expression of every value, and `Sends`: what is put is one complete expression, that of the value if nothing is aborted. Every writer denotes a list of expressions (`Proofs/Link1`–`Link3`), by induction on trees. |
| C53 | reading trees | `Model/FromExpr`; reading the expression of a tree is computed case by case (`Proofs/Link4`, `Link5`); tables of symbols are injective, by the kernel on the complete tables |
| C54 | reading issues and containers | the same, after `flat`, what evaluation does to associations and rules (`Proofs/Link6`) |
| C55 | parsing, then sending and reading | every node has children; tokens lie in the order of their beginnings, so that `Source::between` finds first and last token; positions grow by at most a tab per character; rewritten tokens end behind their beginning (`Proofs/Link7`) |
| C56 | displaying characters | `Model/Show`; Spec: `Spec/Show`, the scalar value a character stands for. By cases on the ranges of the graphical form; digits by induction on their number; the tables of names by the kernel on the complete tables; reading back by C10 |
| C57 | characters as tokens | Spec: `Spec/Chars` (`NextChar`: the next character of a text, encoded or escaped, behind line continuations) and `Lone` in `Spec/CharTokens` (the kind of a character; operators have the kind named after their long name). By the equations of the reader (C10) for each way to write a character; tables by the kernel on the complete tables |
| C58 | names, strings, linear syntax | `NameAt`, `QuoteEnd`, `BlobEnd` in `Spec/CharTokens` say where such a token ends, as relations on texts; by induction on these relations, with the loops of the tokenizer unrolled along them |
| C59 | tags | `TagAt`; as for C58 |
| C60 | names of files | `FileAt`, on characters that are not unescaped; as for C58 |
| C61 | malformed escapes | `MalformedEnd`; as for C58 |
| C62 | issues do not change tokens | `Model/Check`, `Model/CheckTokens`: the reader and the tokenizer over a monad that also collects events. A simulation of each function by the one without issues (`Proofs/Check1`–`Check8`): same result, same place, flag of the encoding raised in the same cases |
| C63 | places of issues | Spec: `Spec/Check` (`Piece`, `Within`). Part of the same simulation: every location an issue is given is one that was passed, or the one before it on the same line |
| C64 | broken encodings are reported | a relation between the flag before, the flag behind and the events (`EncodingLaw`) that holds for the steps and is kept by composition and loops, hence holds for every function (`Proofs/Check10`–`Check12`) |
| C65 | options that switch issues off | as for C64 (`OffLaw`) |
| C66 | issues do not change the tree | `Model/CheckParser`: the parser over a monad that also collects events; the functions that do not read are those of `Model/Parser`. A simulation of each parselet and loop by the one without issues (`Proofs/Check13`, `Check14`), with the state of the reader between the start of the text and its end |
| C67 | issues and tracked positions of a parse | part of the same simulation; the lists of issues by C09 |
| C68 | broken encodings are reported by a parse | the relation of C64 is carried along by the simulation of C66 |
| C69 | options that switch issues off, for a parse | as for C68, with `OffLaw` |
| C70 | issues are justified | Spec: `Spec/Issue` (`Says`: one line per issue of the reader and the tokenizer, about the piece of text at its source and the texts before and behind it). For escapes the run with issues is taken apart step by step (`Proofs/CheckTold`), with the result of the run without issues (C62) telling whether there is an escape; for the others it is part of the simulation of C62 and C66 |
| C71 | corrections | from C70: `Becomes` says what an action makes of the piece; the new text is an escape of the grammar of C10 |
| C72 | fatal issues | from C70 and C68 |
| C73 | completeness of issues about characters | a predicate on places ("reached from the start, everything before it reported") that reading one source character preserves is shown to hold behind every computation of the reader, the tokenizer and the parser with issues, and for the start and end of every token (Proofs/Cover1 to Cover3); at the end-of-file token it is the statement |
| C74 | the iterators of iter.rs | `Model/Iter`: one call of `next` is a step of the reader. A text is a chain of characters and escapes (`Wolfram`), proved to be what the calls give by induction on that chain; that every text is such a chain by induction on its length; for tokens the loop of `tokenize` is simulated call by call |
| C75 | `fmt_as_expr.rs`, and the part of `bin/main.rs` that prints | `Model/Print`; printed trees are cut into their parts from the left: heads end at the first `[`, symbols at the first comma, texts where their kind ends (`Delimited`); mutual induction over pairs of trees. That nodes have sources is that of C55 |
| C76 | everything the tokenizer and parser do with two tab widths and conventions | the same model run twice from states that differ in the location; a simulation through every function of the reader, tokenizer (`Place1`, `Place2`) and parser (`Place3`, `Place4`): equal characters, tokens equal up to position, stacks of trees related by `Spec/Places`; the rewriting of unterminated tokens by induction over trees (`Place5`); aggregation and abstraction of two trees that differ in positions, through every function (`Place7`-`Place9`) |
| C77 | the loops of `do_parse` and `tokenize_bytes` | the loop is cut after some trees; the invariants of C26 say where the reader is then and that all stacks are empty, and the simulation of C76 relates the rest of the run with a fresh run |
| C78 | positions in the result of `abstract_cst.rs` | every abstraction function, given trees whose tokens are in order, gives nodes whose positions are nested and lie on the tokens of the tree (`Spot1` to `Spot3`), by induction on the fuel of the abstraction; a second pass for the exact position of the top node (`Spot4`); `Spec/Spots` |
| C79 | the recursion of `abstract_cst.rs`, modelled with fuel | every function is shown to call the recursion only on smaller requests (`Stop1`, `Stop2`); more fuel gives the same result, by monotonicity of every function in the recursive call (`Stop3`); so `abstractCst` satisfies the recursion equation of the code |
| C80 | the constructs of `abstract_cst.rs` and `abstract_call_node.rs` outside of arithmetic | inversion of each function, given the recursion equation of C79 (`Proofs/Build`); the rules are an inductive relation `Built` in `Spec/Build` over an arbitrary relation for the parts |
| C81 | all of abstraction, on the trees of the parser | multisets of words on both sides; what is dropped by each function is a token that is no word, by the shape of the nodes (`Proofs/Words1`, from C23 and C36); one lemma per function (`Words2`, `Words3`), induction on the recursion |
| C82 | the functions of `codeparser-wll/src/lib.rs` (`Model/Library`), from the arguments on the link to what is put on it | the expression to be answered is given by `Spec/Library`; the writers are those of C52, and the results those of C25, C35, C62, C66; case analysis of the arguments for what is refused |
| C83 | `Abstract_LibraryLink` (`Model/AbstractCall`): arguments, reading the tree, abstraction, writing the result | reading back what was sent (C53, C55), for aggregated trees, which have no newlines and no empty nodes; abstraction does not look at what the model records of the text after a token (`Proofs/Erase`), which is not sent |
| C84 | as C83 | every text in the tokens of a tree is valid and every position is in the convention of the parser (C53); each function of abstraction keeps this (`Proofs/Mail`); what is valid can be written |
| C85 | expressions, with a text for each (`Spec/FullForm`), over the meaning of texts of C50 | by induction on the expression: its text is cut into the lexemes of a form, these write it, and the meaning of the form is the expression; then C50 |
| C86 | as C85, with a relation between expressions and texts instead of the function (`Spelled`) | by induction on the derivation, as C85; C85's text is one of these |
| C87 | as C85, with a relation between expressions and texts with operators (`Notated` in `Spec/Parens`) | by induction on the derivation: a form in parentheses has no operators at its ends, so it keeps its operands next to every operator, and its meaning does not depend on its place; the operators by a finite table; then C50 |

## What is modelled, and what is not

Modelled (file by file, in `crates/wolfram-parser/src`): `read/byte_decoder.rs`,
`iter.rs`, `read/byte_buffer.rs`, `read/character_decoder.rs`, `read.rs`, `long_names.rs`
with its generated tables, `tokenize/token_kind.rs`, `tokenize/token.rs`,
`tokenize/tokenizer.rs`, `parse.rs`, `parse/parselet.rs` and
`parse/parselet/*.rs`, `parse/token_parselets.rs`, `parse/operators.rs`,
`precedence.rs` with `generated/precedence_values.rs`, `parse_cst.rs`,
`error.rs` (recovery of unterminated groups), `cst.rs` (nodes, `get_source`),
`cst/visit.rs`, `agg.rs`, `ast.rs`, `abstract_cst.rs`,
`abstract_cst/abstract_call_node.rs`, `quirks.rs`, `issue.rs` (the log),
`fmt_as_expr.rs`, `byte_encoder.rs`, `read/wl_character.rs` and `Display for SourceCharacter` (C56), `utils.rs` and `source.rs` (the functions of C40–C42), and the entry points of
`lib.rs` (`tokenize`, `tokenize_bytes`, `parse_bytes_cst_seq`,
`parse_bytes_ast_seq`, `parse_bytes_ast`). Of `crates/codeparser-wll/src`: `convert_wstp.rs` and
`from_expr.rs`, over a model of what a link carries (`Model/Link`: the calls of the crate wstp
`put_function`, `put_symbol`, `put_str`, `put_i64`, `put_f64`, and `get_expr`), and the functions of
`lib.rs` that answer calls (C82, C83), with `parse_to_token` and `safe_string` of the parser's `lib.rs`.

Issues of the reader and the tokenizer are modelled with tag, severity, positions, confidence and code actions
(`Model/Check`, `Model/CheckTokens`, and the generated table of ASCII replacements), and the parser with the lists of
issues and tracked positions in its result (`Model/CheckParser`; the parser itself reports no issues); formatting a
character for an issue is modelled as far as it can panic.

Not modelled: the messages of issues; `Diagnostics.rs`;
the `Display` implementations other than those of characters; the command line tool (except what it prints of concrete syntax and tokens); `Abstract_LibraryLink` for boxes;
how the crate wstp takes an expression from a link (`Model/Library` starts from the arguments as
expressions or byte arrays; a tab width of 0 is refused there); the Wolfram Language packages; boxes as *input* of the parser (box nodes exist in the tree type, and
aggregation, visiting and abstraction of them are modelled, with the parts the
code leaves as `todo!` or as panics kept as panics); `u32` overflow; memory
exhaustion and the call stack's depth.

## Findings (places where the code does not have the property one expects)

Each is proved as a theorem (name in brackets) unless marked "observed".

* A numeric escape of a surrogate (`\:d800`, `\|00d800`) panics [`C12_violated`, `C25_surrogate_panics`].
* Behind `<<`, `>>` and `>>>` a newline is reported as top-level also inside brackets, as in
  `{a>>`, newline, `b}` [`C23_violated`].
* The name of a file with an open bracket, as in `{<<a[ b} + c`, is rewritten to reach to
  the end of its line, over the tokens that follow and beyond the group it is in
  [`C33_violated`].
* `tokenize(&str)` panics on any text containing U+FEFF; on an unterminated
  string or comment followed by a blank line; and with character-index
  positions on an unterminated token after a non-ASCII character, because
  recovery uses byte offsets [`C25_violated`, `C35_violated`].
* `CODEPOINT_TO_LONGNAME_MAP` is not sorted although it is searched by bisection [`C14_codepoint_table_violated`].
* Line continuations at the very end of the input are in no token [`C17_violated`, `C26_violated`].
* Error recovery drops tokens and flattens nested groups; an unterminated
  multi-line string is given a text that does not match its span [`C26_violated`, `C29_violated`, `C34_violated`].
* `LineColumnSpan::overlaps` is not symmetric [`C42_overlaps_not_symmetric`].
* Aggregating an aggregated tree panics when it contains a call [`C36_again_panics`].
* `parse_bytes_ast` panics on `-()`, on `Plus\[InvisibleApplication]a+b`, on
  `a>>`, on `[a)b]` and on `#"\xff"` [`C37_violated`, `C37_violated_errors`, `C37_violated_encoding`].
* `tab_width = 0` divides by zero (observed; the theorems assume it is positive).
* `\|110000X`: the error token swallows the `X` (observed).
* A base written with a line continuation, `1\⏎6^^f`, is an invalid base (observed).
* `$` is missing from the characters of file names after `>>` (observed).
* The abstract `Derivative` node of `f'` has no source; a debug assertion in
  `abstract_cst.rs` (1262–1290) fails there (observed; debug only).
* `part_span_even_children`'s `debug_assert` on `Star` fails for `x - a b`, that
  of `\[InvisibleComma]` for its use (observed; debug only).
* `ImplicitPlus` has precedence 88 although `Plus` has 86 (observed).
* `a ; * b` is grouped as `(a;) * b`, and an operator with a missing operand
  can end up under a tighter operator, which is why C31 is restricted to chains
  whose operands are present (observed).
* A user-written `` CodeParser`Comma[a, b] `` inside a group is spliced by abstraction like a comma (observed).
* At the top level `a+b`, newline, `-c` is one expression, although `a`, newline,
  `-c` is two: the loops of infix operators look for a further operator across
  line breaks [`C49_violated`].
* Abstraction has a symbol for commas, which users can write too: `{Comma @ x, y}` becomes
  `{x, y}` with the default settings, and ``{CodeParser`Comma[x, y]}`` becomes `{x, y}`
  [`C50_violated`].
* What `FmtAsExpr` prints cannot be read back: there is a comma behind the last element of a list, so that the parser
  itself reads one element too many, and quotes are not escaped [`C75_violated`, `C75_quotes_violated`]; the command line
  tool panics on bytes that are not UTF-8 instead of reporting them [`C75_panics`].
* How much of a group without closer the tree contains depends on the convention for positions: in ``f[⏎⏎a⏎b = 1⏎`` error
  recovery drops `b = 1` with lines and columns, but keeps `b` with character indices [`C76_violated`].
* `#a\[Alpha]` is `Slot["a\\[Alpha]"]` with the backslash doubled, but `#\[Alpha]a` is not (observed).
* `\[Pi]`, `\:03c0` and `π` become `Pi`, but `\:03C0`, the same character written with an upper-case digit, stays a symbol with
  this text [`C50_spelling`]; the table of the code compares source texts, not characters.
* With the `Check` and `Script` first line behaviours an input starting with `#`
  but not `#!` loses its `#`; a string or comment left open in the first line
  takes the following lines along [`C24_violated`].
* A newline on the top level is sent under the same symbol as other newlines and is read back as
  one inside of an expression [`C53_violated`].
* Reading an issue with additional sources panics [`C54_sources_violated`].
* The confidence level among the data of a container is written without the name of its field, and
  such a container cannot be read [`C54_confidence_violated`].
* Positions inside of boxes that span several children (`Spanning`) are not written in one version of the
  interface and cannot be read in the other (observed; excluded by `Fits`).
* Displaying the character `\[RawDoubleQuote]` or `\[RawBackslash]` panics [`C56_violated`]; a line
  continuation is described as `\\n`, an escaped backslash and a letter [`C56_continuation_violated`].
* A backquote behind the word of a tag belongs to the tag: `a::b`` is `MessageName[a, "b`"]`
  [`TagAt.backquote`]; a malformed escape swallows one character behind a complete number of digits that a
  line continuation interrupts, and one behind `\[` that starts no name [`MalformedEnd`].
* A string with `\:000a` in it is recorded as having an embedded newline (observed): the newline is
  recorded for the character, however it is written.
* Looking for issues behind `_.`, `--`, `|>` and `++` reads one character further, so that peeking at `++` in
  `++\:d800` panics with issues and does not without [example behind `C62_peek`]; the whole text panics in both cases
  [`C62_tokens`].
* `-(0 ] b)` becomes `0`: `negate` looks only at the first expression between parentheses, and if it is a zero the
  error and everything behind it disappear from the abstract syntax [`C81_forgets`].
* Of the fatal issues only the first ten are kept: behind ten malformed escapes a byte that is not UTF-8 is in no issue,
  though the result has an encoding error [`C68_dropped`].
* `DestroyParserSession_LibraryLink` never returns: behind the head `List` it asks for another function where the number of
  the session is, so every call panics [`C82_destroy_never`].
* An expression goes on behind the end of its line when the line is a sum, product or other sequence and the next one begins
  with the same operator: `(a)+(b)` and, on the next line, `-(c)` are one sum, though a line that is no sequence ends
  there: the loop for sequences skips every newline, the one for other operators does not [`C87_minus_line`].

## Trusted base

Lean 4.33.0's kernel; the axioms `propext`, `Classical.choice`, `Quot.sound`
(no others are used; no `sorry`, `native_decide`, `bv_decide`); and the
faithfulness of the transcription documented at each definition. The generated
tables (`Model/Gen`) are produced by `tools/gen_tables.py` from the text of
`/repo`; the generator is trusted to copy them correctly.

## Testing the theorems

`tools/mutate.py` copies the project to `/tmp/mut`, applies one edit of a model
definition at a time, rebuilds and appends the outcome to `seeded/LOG.jsonl`.
