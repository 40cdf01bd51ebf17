# Formal model of lexertl17 in Lean 4 — design

The model lives in `lean/Verif/`.  Every `def` of the model carries a comment
with the file and lines of `/repo/include/lexertl` it models; proofs are in
separate files and the property theorems in `lean/Verif/Props/*.lean`.

## Trusted base

* Lean 4.33.0's kernel and the three standard axioms `propext`,
  `Classical.choice`, `Quot.sound` (each theorem's axioms are printed by
  `lean/Verif/Audit.lean`; no others occur, no `sorry`, no `native_decide`, no
  `bv_decide`).
* The reading of the C++ text: the model was transcribed by hand; the code was
  never run.  The citation beside each definition is the only tie.
* The C++ standard library behaves as specified (`std::vector`, `std::set`,
  `std::map`, `std::unordered_map`, `std::set_intersection`, `std::istream`).

## Modelling conventions

* Characters, charset numbers, state numbers and node numbers are `Nat`.  The
  alphabet is `0..max` with `max` a parameter (255 for `char`, 0xffff or
  0x10ffff for wider types), so every theorem about charsets holds for every
  character type.  Where wrap-around could matter (`id_type` overflow in the
  generator, UTF arithmetic, table sizes) the model keeps the bound explicit.
* Exceptions are `Except` errors; reads outside a container, dereferencing the
  end of input, reading an empty stack and non-termination are distinct
  outcomes (`none`/`Outcome.ub`/lack of fuel for every fuel), never totalised
  into a value.
* Loops are structural recursion, folds, or fuel-indexed functions for which
  termination (enough fuel exists) is a theorem.
* Nodes of the syntax tree live in a heap of leaf/end nodes addressed by
  allocation number; the mutable fields (`_followpos`, `_greedy`) are heap
  fields, exactly the two the code mutates after construction.

## Plan per property
* **C01 Longest match, earliest rule wins** — Model the whole chain: syntax tree nodes with first/last/followpos as built by the parser's tree operations, alphabet partition, per-state equivalence list, closure, DFA table, lookup loop.  Spec: `Regex` inductive type with the usual inductive language.  Proof: Glushkov theorem (induction on the tree), subset-construction invariant over the worklist, order invariant for rule priority, run lemma for the lookup loop.
* **C02 No match is reported exactly when no rule matches** — Same chain as C01, the no-match branch of `next`.
* **C03 Inserting a range or charset is set union** — `insert` modelled as the loop over the range vector; induction on the ranges.
* **C04 Negating a charset is complement** — `negate` modelled as the fold over ranges; induction.
* **C05 Intersecting two charsets splits them exactly** — `intersect`/`adjust` modelled with the two cursors; well-founded induction on remaining ranges.
* **C06 Charset difference and union operators** — As C05.
* **C07 Charset equality is set equality** — Two well-formed range lists with the same members are equal: induction.
* **C08 Alphabet partition is exact** — `partition_charsets`, `build_set_mapping`, `fill_lookup` as list functions; invariant over the splitting loop.
* **C09 Per-state transition sets are exact** — `build_equiv_list` as list function; invariant over the splitting loop, including order of followpos.
* **C10 Repetition operators mean what they say** — `optional`, `zero_or_more`, `one_or_more`, `repeatn` on the heap; language equations.
* **C11 Copying a subtree yields an independent equal subtree** — The explicit two-stack machine of `node::copy`; proof that it equals recursive copying, by induction on the tree with a continuation (remaining stacks).
* **C12 Operator precedence of the regex parser** — The precedence table and the shift/reduce loop; completeness for every regex syntax tree, by induction with the parser stack as continuation.
* **C13 DFA construction terminates and is deterministic** — Fuel-indexed worklist; termination measure: number of not yet seen subsets of the finite node set (`Proofs/Terminate`, from the shape of the syntax tree alone, so for every rule set).  The address assignment is a parameter of `closure`.
* **C14 Built tables are well formed** — Invariant over the worklist.
* **C15 Tokens tile the input** — Invariant of `next` and induction over calls.
* **C16 Lexing terminates** — Measure: remaining input.
* **C17 Zero-length skip matches make lookup loop forever** — Every fuel fails: induction on fuel.
* **C18 Skip and continue rules** — Refinement of `next` to a small recursive spec over single matches.
* **C19 Start-state stack discipline** — Stack model of `pop`; invariant over calls; the empty-stack read is a distinct outcome.
* **C20 Minimising a state machine changes no result** — `minimise_dfa` as list function; simulation relation between the row tables; termination by size.
* **C21 Minimising a char state machine** — `Model/Csm` has `minimise` of the char machine; the loops over pairs of states are shown to number the classes of equal states, one pass is a renumbering that keeps transitions, passes compose; the loss of ids is proved for every machine with two equal states, with a witness in which two tokens become one.
* **C22 Save/load round trip** — Text-level model of `output_vec`/`input_vec`/`save`/`load`; induction on vectors, decimal printing round trip.
* **C23 UTF-8 round trip** — Bit-level arithmetic of encoder/decoder on `Nat`; induction over sequences.
* **C24 UTF-16 round trip** — As C23.
* **C25 UTF decoders never read past the end** — Reads modelled as checked accesses; theorem: no `ub` outcome.
* **C26 Byte swapping iterator is an involution** — Byte lists / BitVec.
* **C27 replace() keeps everything it does not replace** — `replace` loop over the lookup model; induction on fuel.
* **C28 build is all or nothing** — `build` modelled as the C++ sequence of steps on (sm, temp_sm) with possible throw at each step.
* **C29 Zero-length rules are rejected exactly** — `check_zero_len` on the tree; nullable = epsilon in language (`Proofs/Null`: from the trees the parser builds, whatever the anchors). Empty tokens: invariant of the scanning loop on tables whose start row accepts nothing.
* **C30 Suppressed rules are detected exactly** — `check_suppressed` over used ids; reachability of end states from C01's invariant.
* **C31 Lexer state names** — `push_state` history as fold; invariant.
* **C32 A rejected push leaves the rules unchanged** — `push` as sequence of vector appends with throw points; all throwing steps precede the first append. Names of states: the accepted texts are those C61 gives a meaning, plus the loose ones (`C32_state_texts`, `C32_loose_names`).
* **C33 Compressed (byte-sliced) charsets** — `slice_range`, `insert_range`, the compressed branch of `charset` in the parser (`sliceToken`). `Spec/Wide`: big endian bytes and rows of byte charsets. 16 bit: equality. 24 bit: what each range accepts, equality where it is right, witnesses where it is not. The parser, generator and lookup theorems are over words of byte sequences and are transported to characters of every width (`Proofs/Slices`, `Proofs/Wide`).
* **C34 Beginning-of-line anchor** — `bol`/`fixup_bol` in the tree model; refinement as C01 with two start rows.
* **C35 End-of-line anchor** — `is_eol`, `fix_clashes`, `prune_*` modelled; what holds is proved for all widths (pruning and clash repair change nothing under the conditions of `DollarOk`, at the level of bytes), the shared-row clash and the clashes between bytes are proved as negation witnesses.
* **C36 Iterator reaches end exactly at end of input** — Model of `iterator` over the lookup model.
* **C37 sm_to_csm keeps the automaton** — `Model/Csm` has `sm_to_csm` and `append`; the charset of each column is the set of characters the lookup table sends there, and the map of transitions has one charset per target; paths in the table and in the char machine correspond.
* **C38 Stream iterator delivers the stream** — Shared buffer, list of clients, iterators in a store (`Model/Stream`). Refinement: iterators are positions in the text (`Spec/Stream`); invariant relating buffer, indexes, clients and reference count, kept by every operation. Destroyed iterators, a deleted buffer and overlapping memcpy are distinct outcomes. What breaks it is shown by concrete histories.
* **C39 Case-insensitive and class charsets** — `fold` in the tokeniser model; `Spec.Closed` says what ignoring case means; through C49 the built lexer takes exactly the characters equal up to case. The wide tables are in `Model/FoldTables`, generated from the files.
* **C40 Numeric escapes** — `decode_octal`, `decode_hex` on digit lists of any length; acceptance through C49, refusal by following the tokeniser to the escape.
* **C41 Quoted text is literal** — Induction on the text through the reading relation of C49.
* **C42 Result comparison and reset** — Model of `match_results`.
* **C43 A call of lookup does exactly what the rules say** — Relation `Spec.LexEnv.Lex` over regular expressions only; refinement in both directions by induction on fuel and on the derivation.
* **C44 Only regexes in the grammar are accepted** — Invariant of the parse loop: every symbol on the token stack covers a token sequence deriving from the corresponding non-terminal; hence the tokens read derive a regex when the loop returns.
* **C45 From regex texts to tokens** — Invariants of the tokeniser (shape of token sequences, anchors only at the ends, macro bodies), of the rules object over all call histories; composition with C14, C43 and C44.
* **C46 Every regex text is taken or refused** — Reads of the text and of containers are checked accesses, loops have fuel; theorem: no `ub` and no `fuel` outcome, by induction over the text, for every environment satisfying `TokEnvOk`.
* **C47 Chained UTF iterators transcode** — The encoder loop is proved for any input iterator that yields code points; the decoder yields them.
* **C48 Moving a UTF iterator on and back** — Position predicate `At` over the encoded text; induction on the distance.
* **C49 What a regex text means** — `Spec/Reads`: a declarative grammar of texts, from characters to lexemes to expressions, with macros. Proved in stages: charsets, noise, lexemes (`reads_next`), the loop of `tokenise` (`tokLoop_means`), programs (`program_run`), then C01.
* **C50 Non-greedy operators** — As C35: the specification (`Spec/Line`, `Picks`) lets a rule with a non-greedy operator end the match early; the built machine is proved to choose one of the allowed outcomes. Rules that are not cut short (`Spec/Eager`): all positions that follow a position are marked by a greedy operator (`Proofs/EagerTree`, by induction on the parse), so the table has the transition (`Proofs/EagerPos`); the scan is that of the table seen as a table for the words it has a way for (`Proofs/EagerScan`).
* **C51 Generated lexers** — `Model/GenCpp` has what the generated function does, part by part, and the cells of the generated tables. Simulation with `lookup` with exactly the flags the features ask for; then C52. Where the generated code differs, by concrete machines.
* **C52 Flags that are not needed** — Two runs of `lookup` side by side: flags that are not needed change only variables that are not looked at, because the tables do not contain what the features do not say (`Spec/Features`).
* **C53 Unicode property escapes** — `Model/UnicodeTables` has the tables, generated from the files, and the texts made from them. The members of a property are defined by membership in the tables (`Spec/Unicode`, `HasProp`); that the texts mean these sets is proved by induction over lists of ranges, through the reading relation of C49, for all names at once; what depends on the data (ranges in order, in normal form, names distinct) is checked over the whole tables by the kernel.
* **C54 Unicode properties classify the characters** — The families are merged into one sorted list by a proved merge; disjointness and coverage are checked on the merged lists, over the whole tables, by the kernel, and hold of all code points by the correctness of merge and check.
* **C55 Features of a machine** — Leaves and end nodes of the syntax trees come from tokens and rules (`Proofs/FeatLeaves`), cells of the tables from leaves and end nodes (`Proofs/FeatRows`): invariants of parser and generator. The feature words of the rules object record the tokens and rules: invariant of all calls (`Proofs/FeatBuild`). No other bits are set (`Proofs/FeatOnly`, by the same invariant in the other direction). The excluded case is refuted by a concrete object.
* **C56 Enclosed texts end at the first closing text** — Shape of the tree of such a rule (`Proofs/EncTree`); invariant of `closure`, by kind of position: opening, repeated, closing, end (`Proofs/Enclosed`, `Proofs/EncPos`); so the rows where the rule ends and no other rule is under way have no way on, which is carried through `build` (`DeadAt` in `Proofs/Build`). For lookup: the table is also a table for the words that do not go on after such a text, and what is proved of all tables gives the end (`Proofs/EncScan`).
* **C57 Memory files** — `Model/MemoryFile`: the members, and the descriptors and pages of the process with who asked for them; a transition relation for all histories, with any answers of the operating system. Invariants of what each object owns, by induction on the history; what is lost stays lost for ever, also by induction.
* **C58 Printed machines** — `Model/Debug`: the texts as lists of characters, undefined behaviour of `front` as an outcome. The text of a charset is shown to derive from the grammar of charsets in `Spec.Reads`, range by range; by uniqueness of what a text means (C49) charsets with the same text are the same, and machines with the same dump are compared line by line, by induction.
* **C59 Rules with non-greedy operators** — `Spec/Lazy`. Where no non-greedy operator is last, `is_end` is false at each of them (`not_ends`, by induction on the derivation), so nothing is pruned; where one is last, one round of pruning gives the tokens of the expression with the fewest repetitions (`removeSequence_spec`, `round`, `prune_shortened`); `split` gives the alternatives; then C50. For operators that are last in an alternative: counterexamples, by comparing tokens with those of another text whose meaning is known. With lexer states: `LazyStates.program_run` shows which rules each state gets, and `Refined.lexAny` that what the rules of the alternatives allow is what the whole expressions allow.
* **C60 Rules with anchors, given as texts** — `program_run` (C49) gives the rules as tokens with their meaning and the features of the lexer state; `Anchors.program_anyRules` the hypotheses of C35; then C50.
* **C61 Lexers with several states, given as texts** — `Spec/StateProgram`: what names, `*`, `.`, `>NAME:BACK` and `<` mean. `InStates.program_run` runs the calls on the model of the rules object; `Alike.lex`: the specification of `lookup` depends only on what the texts mean; then C43 and C35.
* **C62 Char state machines from the generator** — `Model/CsmBuild`: `build` with `lookup` false. Both builds run side by side (`buildLoop_direct`): the lookup table sends the characters of class `i` to column `7 + i` and no others, so the charsets `sm_to_csm` collects are the classes themselves. Then C37, and for acceptance the exactness of tables (C01) along paths (`auto_path`, `table_accepts`).
* **C63 The text of generated tables** — `Model/GenText`: the characters written by `dump_tables`. `Spec/CText`: tokens of C++ text and the declarations expected. Proved from pieces: a text with its tokens whatever follows (`Closed`) or when no letter or digit follows (`Open`); tables row by row (`open_rows`). The converse reads the numbers back declaration by declaration.
* **C64 Graphs of machines** — `Model/Dot`: the characters `dot.hpp` writes. `Spec/Dot`: tokens of the DOT language, with HTML strings, and the graph expected. Proved like C63, piece by piece; names of lexer states are valid after all calls (`calls_names`), labels have only the ends of the listed ranges and escapes (`label_chars`).
* **C65 The example program wc** — `Model/Wc`: `main` of the example, from the texts of its macros and rules to the numbers printed, with `int` counters. The texts have a meaning (C49), so `lookup` takes the best match of three expressions; `best_token` says what this is at each position, and the loop is an induction over the calls, counting what remains (`loop_counts`). `Spec/Wc`: words and lines by positions.
* **C66 The example program calc** — `Model/Calc`: `gen_calc`, `reduce` and `calc` of the example, from the texts of the rules to the value, with 32 bit `int`s and undefined behaviour for overflow, division by zero and empty stacks. The texts have a meaning (C61), so each call of `lookup` takes the best match in the lexer state; `loop_scan`: the loop is a machine on tokens (`exec`). `Spec/Calc`: tokens, expressions with their precedences, values. An invariant of the machine (stacks, lexer state, stack of lexer states; `Inv`) gives the outcomes and an induction over the grammar gives which texts are taken (`accepted_iff`). Values: an induction over expressions that the machine evaluates in the right order (`exec_easy`); for others it is wrong, with witnesses.
* **C67 The example program json** — `Model/Json`: `main` of the example, from the texts of its macros and rules to the printed lines. The rules have a meaning (C61), so each call of `lookup` takes the best match in the lexer state; `Steps`: what is printed, as a machine on texts. `Spec/Json`: JSON texts and their tokens (RFC 8259). An induction over the grammar gives that JSON texts are printed as their tokens, and an invariant on the stack, the lexer state and what was read so far that other texts are not. The generator returns a machine: `Proofs/Slim` has the generator without its tables, which returns only if the generator does not throw (`temp_ok`), and `Proofs/JsonBuild` runs it in the kernel.
* **C68 Nested text is one token** — `Spec/Nested`: openings, closings and the text between, in terms of the rules chosen. Induction over the nested text on the specification of `lookup` (C43): inside an opening the top of the stack has no id, so a closing goes on.
* **C69 The example program ocaml** — `Model/Ocaml`: `main` of the example, for any input, from the texts of its macros and rules to the printed lines. Every rule has a meaning (C61), worked out as a set of texts (`Proofs/OcamlLex`); comments by induction over their nesting; the loop is an induction over the length of the rest (`goes`). `Spec/Ocaml`: the kinds of tokens and what is printed; `prints_unique`: this is determined. The machine exists by evaluating the generator in the kernel, in pieces (`Proofs/OcamlBuild`).
* **C70 Lexing can be resumed** — Every function of the model of `lookup` commutes with moving all positions (`nextLoop_moved`), does not read at or behind the end of the input (`nextLoop_beyond`), and ignores the ids of the last token (`nextLoop_ids`); then induction over the calls.
* **C71 Added rules and the order of rules** — From C01 for both machines: best matches are unique, and the best match with a rule appended is the old one unless the new rule outdoes all others (`Spec/RuleOrder`). With several states: the declarative lexer of C43 makes the same choices for rule lists as good as each other (`Spec/SameRules`).
* **C72 How far a token looks ahead** — From C01: no match ends at or behind that position, and the texts that end before it are the same in both inputs, so the best matches are the same. All lexers: induction on the declarative lexer of C43 (`Spec/Stuck`).
* **C73 A text can be cut** — Two runs side by side, by induction on the characters left: by C01 each call finds the same best match in the whole text and in the part (`cut_run`). With several states: induction on the declarative lexer of C43 with the end moved, and C70 for the second part.
* **C74 Characters that no rule tells apart** — Matching is invariant under the replacement, by induction on the expression; then C01 for both inputs. Ignoring case: by induction on the grammar of texts (`Spec/Reads`) all charsets contain both cases of a letter or none. Several states: the declarative lexer of C43 makes the same choices on both inputs.
* **C75 Numbers of lexer states and ids do not matter** — By induction on the declarative lexer of C43: chosen rules, their effect and the end of a token translate (`Spec/Rename`).

## What is modelled

Paths are relative to `include/lexertl`; line numbers are in the comments.

| Lean module | code |
|---|---|
| `Model/StringToken` | `string_token.hpp`: ranges, insert, negate, intersect, remove |
| `Model/Partition` | `partition/charset.hpp`, `partition/equivset.hpp`, `partition_charsets`, `build_set_mapping`, `build_equiv_list` of `generator.hpp` |
| `Model/Tree` | `parser/tree/*.hpp`: nodes, first/last/followpos, `copy`, greedy marks |
| `Model/Parser` | `parser/parser.hpp`: shift/reduce loop, actions, `fixup_bol`, charset map; `re_token.hpp`: precedence |
| `Model/Generator` | `generator.hpp`: `build`, `build_dfa`, `closure`, `check_zero_len`, `check_suppressed`, `fill_lookup`, `prune_NL`, `prune_eol`, `fix_clashes` |
| `Model/Lookup` | `lookup.hpp`, `match_results.hpp`: `next` with all flags |
| `Model/Iterator` | `iterator.hpp` |
| `Model/Minimise` | `state_machine.hpp`: `minimise` of `basic_state_machine` |
| `Model/Tokeniser` | `parser/tokeniser/re_tokeniser.hpp`, `re_tokeniser_helper.hpp` |
| `Model/UnicodeTables` | `parser/tokeniser/unicode.hpp`, `blocks.hpp`, `scripts.hpp`, `table.inc`, generated from their text (only C53 and C54 depend on it, elsewhere the tables are a parameter) |
| `Model/FoldTables` | `parser/tokeniser/fold2.inc`, `fold4.inc`, generated from their text |
| `Model/Rules` | `rules.hpp`: states, macros, `tokenise`, `push`, abstemious pruning |
| `Model/Utf` | `utf_iterators.hpp`: UTF-8/UTF-16 input and output iterators, flip iterator |
| `Model/Serialise` | `serialise.hpp`: `save`, `load`, as text (streams: decimal numbers, white space, failure) |
| `Model/Replace` | `replace.hpp`: the common loop of all overloads, two kinds of output iterators |
| `Model/Csm` | `sm_to_csm.hpp`; `basic_char_state_machine` in `state_machine.hpp`: `append`, `minimise` |
| `Model/CsmBuild`, `Model/Nfa` | `build` in `generator.hpp` for char state machines, with `is_dfa` true and false |
| `Model/Stream` | `stream_shared_iterator.hpp`: all operations, for iterators over one stream |
| `Model/MemoryFile` | `memory_file.hpp` for POSIX systems, with the descriptors and mapped pages of the process |
| `Model/Wc` | `examples/wc/main.cpp`: `main` |
| `Model/Calc` | `examples/calc/main.cpp`: `gen_calc`, `reduce`, `calc` |
| `Model/Json` | `examples/json/main.cpp`: `main`, on code points |
| `Model/Ocaml` | `examples/ocaml/main.cpp`: `main`, for any input |
| `Model/Debug` | `debug.hpp`: `dump` of char state machines and of state machines, with and without names of lexer states; `escape_char` of `string_token.hpp` |
| `Model/Dot` | `dot.hpp`, for `char` (it does not compile for others) |
| `Model/GenCpp` | `generate_cpp.hpp`: the tables and what the generated function does |
| `Model/GenText` | `generate_cpp.hpp:670-941` `dump_tables`: the text of the tables |

## What is not modelled

The examples `date_test`, `gen_cpp_from_idl`, `so_524548` and `unicode`; `dump` of rules in `debug.hpp` (it does not compile), `memory_file.hpp` for Windows, and the text of the function that `generate_cpp.hpp`
writes (text output and OS calls; the text of its tables is modelled, and what the function does); the locale (parameters, with the assumptions in `Spec.TokEnvOk`); error message texts; allocation failure; `size_t` wrap-around of table sizes (only of repeat counts
and ids).

## Axioms

`Verif/Audit.lean` prints the axioms of the theorems in `MANIFEST.json`: at most
`propext`, `Classical.choice` and `Quot.sound`.

## Findings in the code

Found while reading and modelling; those marked with a theorem are proved.

1. `next` loops for ever on a zero-length match of a skip or continue rule
   (`C17_empty_skip_never_returns`).
2. Text matched by a continue rule is dropped when a skip rule or no match
   follows (`C15_continued_text_dropped`).
3. `iterator::operator==` ignores the stack of lexer states
   (`C36_equality_ignores_stack`).
4. `insert_macro` enters the name before it reads the regex: a refused macro
   stays as an empty token list, and a later `{M}` reads its first element
   (`C32_refused_macro_stays`); `insert_macro("A", "{A}")` does so at once
   (`C46_self_reference`).
5. `push_state` with too many states throws after it has inserted the state;
   later names alias `INITIAL` (`C31_overflow`).
6. The parser takes a surplus `)` and drops it; only the tokeniser refuses it
   (example beside `C44_built_only_if_in_grammar`).
7. A rule that pops has `npos` as next state; looked up by a machine used
   without the recursive flag, this indexes out of range (hence the hypothesis
   `hf` of `C14_built_lexing_safe`; `C14_pop_needs_recursive`).
8. `^a|b`: `fixup_bol` is skipped although one alternative starts with `^`, so that
   `b` is not matched at the start of a line (`C60_caret_alternative`).
9. `push` with lexer state names looks for `^` in the last part of a regex that
   was split at `|` because of a non-greedy operator (rules.hpp:1205, `back()`),
   `push` without names in the first (rules.hpp:302, `front()`). After
   `push("INITIAL", "^a|b??c", 1, ".")` the feature bit is missing, and no other
   rule of the lexer state matches at the beginning of a line
   (`C55_named_bol_lost`).
10. Macros with `^` or `$` and several tokens are not parenthesised
    (`C49_anchored_macro_bare`).
11. `abstemious` pruning changes the language: `x(b??|a)` becomes `x(a)`
    (`C59_last_operator_loses_text`); its `end_block` is off by one (`a??|(b|c)d` is not pruned, `a??|bd` is).
12. A comment before `^` or after `$` turns the anchor into a literal
    (`C49_comment_before_caret`).
13. `a{00,5}?` is pruned as if its minimum were not 0, and then repeats without limit
    (`C59_padded_zero`).
14. `\\x` with 17 or more hex digits and repeat counts beyond 2^64 wrap
    (`C40_hex_wraps`).
15. `[:print:]` for wide characters becomes `[\\p{C}]` (`C53_posix_print`).
16. Case folding for wide characters handles entries with a reversed target
    range wrongly: neighbouring cases are not folded
    (`C39_neighbours_not_folded`).
17. `minimise_dfa` of the char state machine copies `_end_state` into `_id` and
    does not copy `_push_pop_dfa` and `_push_dfa`.
18. `slice_range` for 24 bit characters uses the middle instead of the most
    significant bytes in one branch (`C33_three_planes_wrong`, `C33_wrong_tokens`).
    Theorems about code points assume `Spec.FewPlanes`: ranges within two
    neighbouring planes, or from below 256 to the end (`.`, negated charsets).
19. `fix_clashes` shares rows: with `(a|b)$` and `a\\nX`, also `b\\nX` matches (`C35_shared_rows`);
    pointers are used after the rows have moved.
20. `prune_NL`/`prune_eol` index `set_mapping_` with the numbers of the anchor
    tokens, which are outside it.
21. `replace` drops text when the input ends inside continued matches
    (`C27_continued_text_lost`); it compares ids with 0 instead of the id of the
    end of input and runs for ever if that is not 0
    (`C27_other_eoi_never_returns`); it ignores the result of `std::copy`, so
    that output through a pointer overwrites itself (`C27_pointer_overwrites`);
    one text for all matches also replaces unmatched characters
    (`C27_text_replaces_unmatched`).
22. Appending to a char state machine marks states that do not end as pushing
    (`C37_plain_states_push`); lexer states without an alphabet are skipped, so
    that numbers shift (`C37_skips_empty_states`); `minimise` of a char machine
    overwrites ids with the end flag and drops push and pop information
    (`C21_minimise_erases`), which merges different tokens (`C21_merges_tokens`).
23. `utf8_in` takes overlong forms, surrogates and values above 0x10ffff
    (`C23_overlong`, `C23_surrogates`); `it - n` over malformed text reads before
    its beginning (`C48_minus_unsafe`).
24. `stream_shared_iterator`: overlapping `memcpy` (`C38_overlapping_memcpy`),
    leaked reference counts (`C38_leak`), an empty stream has a character
    (`C38_empty_stream`), the iterator made from the stream equals the end until
    used (`C38_stream_iterator_equals_end`) and must not be assigned to or from
    (`C38_assign_from_stream_iterator`, `C38_assign_to_stream_iterator`,
    `C38_dangling_client`); increment 0 ends early (`C38_no_increment`).
25. `load` clears the machine before it validates the file; a truncated file
    loads as zeros (`C22_truncated`); `id_type = uint8_t` is written as
    characters and not read back (`C22_byte_ids`).
26. Compressed machines with `$` and no charset that contains exactly 0
    dereference `end()` (`C35_wide_build_undefined`); `lookup` uses the low 24 bits of characters only.
27. After a stack underflow exception the result object is half updated.
28. The overflow guard at parser.hpp:744 has no effect.
29. `(?-is:...)`: the `-` switches off `i` only and `s` is switched on
    (`C49_minus_one_option`).
30. `$` beats a rule without `$` that matches the same text, whatever the order
    of the rules (`Picks.line` in `Spec/Line`). A text that no rule matches is
    reported when a rule consumes the line end that a `$` rule has seen:
    `[a-z]*$` and `\n` on `a\n` give the second rule with the text `a\n`
    (`C35_line_end_rule_takes_more`).
31. Two `$` rules of one state that match a common text, and a `$` rule that can
    end in CR before `$` (`a\r$`, or `.*$`), make `build` undefined
    (`C35_build_undefined`).
32. Non-greedy is not always shortest: `a??a` on `aa` takes both characters
    (`C50_not_shortest`); `b+?[ab]` takes three characters of `bba`, and two of
    `bbbb`: the result depends on the order in which `process_greedy` meets the
    sets. For rules such as `/\*(.|\n)*?\*/` it is (C56).
33. A rule reached only by transitions that a non-greedy operator cuts still
    counts as used: `a+?b?` followed by `aac` builds, although the second rule never
    matches (`C30_cut_off_rule`).
34. With the `advance` flag off, lookup does not move on where no rule matches.
35. Rules that match the empty text do not change the lexer state
    (`Picks.empty`).
36. `rules.push` with an empty list of state names does nothing; `a,` is taken
    as `a`, and any text that starts with `<` as `<` (pop) (`C32_loose_names`).
37. `a*$` is accepted although `match_zero_len` is off; in front of a line
    end it matches nothing, and every further call of lookup returns the same
    empty token (`C29_dollar_empty_token`).
38. Generated lexers test for `$` before `\n` only, where `lookup` also takes
    `\r`; if the last character of the input does not continue the match, `$`
    is taken to hold behind it: with `a$`, the text `ab` is a token of that rule
    (`C51_dollar_differs`).
39. Generated with pointers, `$` rules dereference small numbers
    (`C51_pointers_dollar_undefined`), and lexer states without `^` rules match
    nothing at line starts if another state has such rules, because the address
    `dfa_ + 0` is not null (`C51_pointers_lose_rules`).
40. The generated function pops an empty stack without a test, where `lookup`
    throws (`C51_underflow_undefined`).
41. Generated code does not compile if there is a push or pop rule and only one
    lexer state (`start_state_` is not declared: generate_cpp.hpp:208, 598), and
    with pointers and more than ten lexer states (the names of the tables are
    declared in hexadecimal and used in decimal: 765, 799-805; `C63_names_partial`).
42. The lists of general categories have only the end points of ranges that the
    Unicode data gives by a first and a last character: `\p{L}` and `\p{Lo}`
    lack nearly all CJK ideographs, Hangul syllables and Tangut ideographs
    (`C54_letters_without_category`; 4E00 and 9FFF are letters, 4E2D is not), and
    `\p{Co}`, `\p{Cs}` have only 6 and 6 characters. Apart from that and the
    missing `Cn` the categories agree with the Unicode data (compared by script).
43. `\p{name}` is refused for 8 and 16 bit characters if the property has a
    single wider character, so that most categories cannot be used with
    `char` or `char16_t` (`C53_too_wide`), and with 16 bit characters POSIX
    classes like `[:alpha:]`, which are made of them, are refused as well.
44. `[:alpha:]` of wide characters leaves out titlecase, modifier and other
    letters: it is `\p{Ll}` and `\p{Lu}` (`C53_posix`).
45. A memory file whose file was opened but not mapped (an empty file) keeps the
    descriptor and loses it when it is opened again (`C57_lost_descriptor`);
    descriptor 0 is never closed (`C57_descriptor_zero`); `close` passes the
    number of characters to `munmap`, so that wide files stay mapped in part
    (`C57_wide_pages_stay`).
46. With 16 bit characters and code points, pruning and clash repair for `$`
    work on bytes: a charset before `$` that has a character with low byte 0D
    (`[\x{100}-\x{1ff}]$`, `[^\r\n]+$`) makes `build` undefined
    (`C35_wide_build_undefined`). The counter `i_` of `fix_clashes` is not reset
    for the second state with `$`, so that a rule `a$` changes what `b$` and
    `b\n` do (`C35_wide_other_rule_matters`).
47. `debug::dump` of rules does not compile: `std::search` compares `basic_re_token`s,
    which have no `==` (debug.hpp).
48. `debug::dump` prints charsets that mean something else as a regex: a single
    `$` (`C58_single_dollar`), a `]` that is not first (`C58_bracket_inside`), a
    range that ends in `-`, `]` or `^`, whose backslash is printed before the range
    (`C58_bracket_ends_range`), a number followed by a digit
    (`C58_number_runs_on`); different machines have the same dump (`C58_same_dump`).
49. For `char32_t` numbers are printed in decimal after `\x` (`C58_char32_decimal`):
    `stream_num` converts with a stream of its own, without the `std::hex` of the caller.
50. `dot.hpp` has the same misplaced backslashes, and prints `<`, `>` and `&` as they
    are inside of HTML-like labels (`C64_less_than_breaks`).
51. Removing a last non-greedy `?` or `*` also removes the `|` after it, even if
    something precedes the operand in its alternative: `xa??|b` becomes `xb`
    (`C59_last_operator_joins_alternatives`).
52. Building a char state machine converts the table (`append`) before the number of rows
    is tested; the loop counter of `append` has type `id_type` and wraps round, so with more
    rows than `id_type` can count it runs past the end of the table instead of throwing:
    `a{256}` with 8 bit ids (`C62_many_rows_ub`).
53. With `is_dfa` false (`basic_char_state_machine<char, id_type, false>`) the transitions of a
    state are stored in one cell per charset, so of several transitions on the same charset
    only the last is kept: `ab|ac` does not accept `ab` (`C62_nfa_loses_texts`).
54. The graphs of `dot.hpp` do not have the states for starts and ends of lines
    (`C64_anchors_missing`), draw a rule that pops as leading to lexer state 65535
    (`C64_pop_leads_nowhere`), and show a newline as they show a backslash or an `n`
    (`C64_same_graph`). `wdot` and `u32dot` do not compile (dot.hpp:181).
55. In `examples/wc`, the alternative `\r` of the rule for newlines never takes effect on its
    own: `{nonws}+` comes first and takes a lone carriage return as (part of) a word
    (`C65_lone_cr_is_a_word`).
56. `examples/calc` computes wrong values: at `+` and `-` it applies only the last of the
    operators before it, and never applies a sign before a following `*`, `/` or `%`:
    `1-2*3-4` gives -1 instead of -9, `2*-3+4` gives 2 instead of -2, `-2*3+4` gives -10
    instead of -2, `8/-4/2` gives -4 instead of -1 (`C66_wrong_values`).
57. `examples/ocaml` does not recognise OCaml literals (`C69_literals_wrong`). The rule for
    strings, `"([^\"]|{ESCAPE_SEQUENCE})*"`, is a quoted text for lexertl, so it takes
    only the text `([^"]|{ESCAPE_SEQUENCE})*` itself; the rule for characters,
    `'[^\']|{ESCAPE_SEQUENCE}'`, is an alternative of `'[^']` and an escape with a closing quote,
    so `'a'` is not one token; `[0-9+]*` in the rule for integers takes `1+2` as one integer; a
    comment that is not closed is printed as `EOF`.
