{"id": "C01", "title": "Longest match, earliest rule wins", "statement": "For characters of one byte, 16 bits or code points (for code points: ranges that lie in two neighbouring planes or reach from below 256 to the end, see C33) and id types wider than 8 bits: after generator::build on a set of rules that use no anchors and no non-greedy operators, each call of lookup on a match_results positioned before the end of input returns as [first, second) the longest non-empty prefix of the remaining input that some rule's regular expression matches, and id/user_id are those of the earliest pushed rule among the rules matching exactly that prefix.", "quantifier": "every list of regular expressions, every assignment of ids, every input and every start position", "why_tests_cant": "The claim ranges over all regexes, all inputs and all ties between overlapping rules; the DFA is only built at run time so no finite test set exercises every state.", "anchors": ["include/lexertl/generator.hpp: basic_generator::build, build_dfa, closure", "include/lexertl/lookup.hpp: lookup, detail::next", "include/lexertl/parser/tree/*.hpp"]}
{"id": "C02", "title": "No match is reported exactly when no rule matches", "statement": "For characters of one byte, 16 bits or code points (with the charsets of C01) and id types wider than 8 bits, and rules that do not match the empty string: lookup returns id = npos (and then moves exactly one character forward when the advance flag is on) exactly when no rule matches any non-empty prefix of the remaining input.", "quantifier": "every set of anchor-free greedy rules, every input, every position", "why_tests_cant": "A missed match on one rare input is invisible to tests that do not contain that input.", "anchors": ["include/lexertl/lookup.hpp: detail::next", "include/lexertl/generator.hpp: build_dfa"]}
{"id": "C03", "title": "Inserting a range or charset is set union", "statement": "After basic_string_token::insert(range) or insert(token) the token contains exactly the characters it contained before plus the inserted ones, and its ranges stay sorted, disjoint and non-adjacent.", "quantifier": "every token reachable through the API and every range", "why_tests_cant": "Overlap, adjacency and multi-range merges give unboundedly many cases.", "anchors": ["include/lexertl/string_token.hpp: insert"]}
{"id": "C04", "title": "Negating a charset is complement", "statement": "negate() turns a token into exactly the characters of the alphabet that were not in it; doing it twice gives back the same token.", "quantifier": "every well-formed token over any alphabet 0..max", "why_tests_cant": "All boundary combinations (0, max, empty, full) over all range lists.", "anchors": ["include/lexertl/string_token.hpp: negate, any, negatable"]}
{"id": "C05", "title": "Intersecting two charsets splits them exactly", "statement": "a.intersect(b, overlap) leaves a \\ b in a, b \\ a in b and a ∩ b in overlap, all well formed, without losing or inventing a character.", "quantifier": "every pair of well-formed tokens", "why_tests_cant": "Iterator-invalidating in-place splits: only an invariant covers every interleaving of ranges.", "anchors": ["include/lexertl/string_token.hpp: intersect, adjust"]}
{"id": "C06", "title": "Charset difference and union operators", "statement": "remove(b) (regex operator {-}) is exact set difference, insert(token) (regex operator {+}) is exact set union.", "quantifier": "every pair of well-formed tokens", "why_tests_cant": "As C05.", "anchors": ["include/lexertl/string_token.hpp: remove, insert", "include/lexertl/parser/tokeniser/re_tokeniser.hpp: open_curly"]}
{"id": "C07", "title": "Charset equality is set equality", "statement": "Two tokens built with any sequences of insert/negate/intersect/remove compare equal exactly when they contain the same characters, so the charset numbering used by the generator never gives one set two numbers.", "quantifier": "every pair of reachable tokens", "why_tests_cant": "Canonicity is a statement about all construction histories.", "anchors": ["include/lexertl/string_token.hpp: operator ==, operator <", "include/lexertl/parser/parser.hpp: lookup"]}
{"id": "C08", "title": "Alphabet partition is exact", "statement": "The alphabet classes computed by the generator are pairwise disjoint, cover exactly the characters used by the rules, and every charset used by a rule is the union of the classes assigned to it; the per-character lookup table maps each character to the class containing it, and other characters to the dead class.", "quantifier": "every list of charsets and every character", "why_tests_cant": "Quadratic splitting of arbitrary set families.", "anchors": ["include/lexertl/generator.hpp: partition_charsets, build_set_mapping, fill_lookup", "include/lexertl/partition/charset.hpp: intersect"]}
{"id": "C09", "title": "Per-state transition sets are exact", "statement": "In each DFA state the outgoing transition on an alphabet class leads to precisely the set of positions that follow some position of the state accepting that class, in rule order.", "quantifier": "every vector of syntax tree positions", "why_tests_cant": "In-place splitting of the equivalence list; order matters for rule priority.", "anchors": ["include/lexertl/generator.hpp: build_equiv_list", "include/lexertl/partition/equivset.hpp: intersect"]}
{"id": "C10", "title": "Repetition operators mean what they say", "statement": "In a greedy anchor-free rule (with the charsets of C01) r?, r*, r+, r{n}, r{n,} and r{n,m} match exactly the concatenations of 0..1, 0.., 1.., n, n.., n..m words matched by r.", "quantifier": "every regular expression r and all n <= m accepted by the tokeniser", "why_tests_cant": "Unbounded n, m and nesting; the tree is expanded by copying nodes with side effects on follow sets.", "anchors": ["include/lexertl/parser/parser.hpp: optional, zero_or_more, one_or_more, repeatn", "include/lexertl/parser/tree/node.hpp: copy"]}
{"id": "C11", "title": "Copying a subtree yields an independent equal subtree", "statement": "The iterative copy used for counted repetition produces a tree with the same shape, charsets and greediness made of fresh nodes, and does not change the copied tree.", "quantifier": "every syntax tree", "why_tests_cant": "Explicit-stack traversal over unbounded tree shapes.", "anchors": ["include/lexertl/parser/tree/node.hpp: copy", "include/lexertl/parser/tree/sequence_node.hpp", "include/lexertl/parser/tree/selection_node.hpp", "include/lexertl/parser/tree/iteration_node.hpp", "include/lexertl/parser/tree/leaf_node.hpp"]}
{"id": "C12", "title": "Operator precedence of the regex parser", "statement": "Parsing the token sequence of a regex yields the tree in which postfix repetition binds tighter than concatenation, which binds tighter than |, with parentheses overriding.", "quantifier": "every regex syntax tree", "why_tests_cant": "Unbounded nesting; the parser is table driven shift/reduce.", "anchors": ["include/lexertl/parser/parser.hpp: parse, reduce", "include/lexertl/parser/tokeniser/re_token.hpp: precedence"]}
{"id": "C13", "title": "DFA construction terminates and is deterministic", "statement": "generator::build terminates for every rule set and its result does not depend on the addresses at which syntax tree nodes happen to be allocated.", "quantifier": "every rule set and every address assignment", "why_tests_cant": "The seen-set hash is a sum of pointers; tests see only one allocator behaviour.", "anchors": ["include/lexertl/generator.hpp: build_dfa, closure, closure_ex"]}
{"id": "C14", "title": "Built tables are well formed", "statement": "Every state number stored in a built state machine (transitions, end-of-line and beginning-of-line entries) is the number of an existing row, and every character maps to an existing column, so no lookup ever reads outside the table.", "quantifier": "every rule set for which build returns, every character", "why_tests_cant": "Memory safety for every input and table.", "anchors": ["include/lexertl/generator.hpp: build_dfa, fill_lookup, set_transitions", "include/lexertl/lookup.hpp: detail::lookup_state::next_char"]}
{"id": "C15", "title": "Tokens tile the input", "statement": "Across successive lookups on one match_results each token starts at or after the end of the previous one, everything between consecutive tokens was matched by skip rules, or by continue rules (id 0) whose token no rule completed, first <= second <= eoi always holds, and without skip/continue rules the concatenation of all tokens is exactly the input.", "quantifier": "every state machine table, every input, any number of calls", "why_tests_cant": "History property over arbitrarily many calls.", "anchors": ["include/lexertl/lookup.hpp: detail::next", "include/lexertl/match_results.hpp"]}
{"id": "C16", "title": "Lexing terminates", "statement": "If no rule can match the empty string (and, for $ rules, the end-of-line links of the tables form no cycle), each lookup terminates and consumes at least one character or reports end of input, so a loop until end of input ends after at most length+1 calls.", "quantifier": "every state machine without zero-length matches and every input", "why_tests_cant": "Termination for every input cannot be observed by running.", "anchors": ["include/lexertl/lookup.hpp: detail::next", "include/lexertl/iterator.hpp"]}
{"id": "C17", "title": "Zero-length skip matches make lookup loop forever", "statement": "A lookup at a position where no rule takes a non-empty text and the first rule matching the empty string has the id skip (or 0) and does not pop never returns; termination in C16 really needs its hypothesis.", "quantifier": "every lexer built from greedy, $-free rules (charsets as in C01), every input at such a position", "why_tests_cant": "Non-termination cannot be observed by a test.", "anchors": ["include/lexertl/lookup.hpp: detail::next"]}
{"id": "C18", "title": "Skip and continue rules", "statement": "A match of a rule whose id is skip() is never returned: lookup returns the first non-skip match after it. A match of a rule with id 0 before the end of input extends the current token: the returned token starts where the first such match started.", "quantifier": "every lexer built from greedy, $-free rules (charsets as in C01) (that no skip id is returned: every state machine) and every input", "why_tests_cant": "Arbitrary long chains of skip/continue matches.", "anchors": ["include/lexertl/lookup.hpp: detail::next, is_id_eoi, pop"]}
{"id": "C19", "title": "Start-state stack discipline", "statement": "In a recursive lexer a push rule pushes one entry, a pop rule removes exactly the most recently pushed unmatched entry and returns to its state; a pop with an empty stack throws and nothing is read from the empty stack.", "quantifier": "every lexer with push/pop rules built from greedy, $-free rules (charsets as in C01), every input and call history", "why_tests_cant": "Nesting depth is unbounded.", "anchors": ["include/lexertl/lookup.hpp: detail::pop", "include/lexertl/match_results.hpp: basic_recursive_match_results"]}
{"id": "C20", "title": "Minimising a state machine changes no result", "statement": "basic_state_machine::minimise terminates, never enlarges the machine, and afterwards every lookup returns the same token, id, user id, state and flags for every input.", "quantifier": "every well-formed state machine, every input, every lexer state", "why_tests_cant": "Equivalence of automata over all inputs.", "anchors": ["include/lexertl/state_machine.hpp: basic_state_machine::minimise, minimise_dfa"]}
{"id": "C21", "title": "Minimising a char state machine", "statement": "basic_char_state_machine::minimise should keep ids and transitions of every state; the code instead overwrites each id with the end-state flag and drops push information.", "quantifier": "every char state machine", "why_tests_cant": "Wrong only for ids other than 0/1, so a test with id 1 passes.", "anchors": ["include/lexertl/state_machine.hpp: basic_char_state_machine::minimise_dfa"]}
{"id": "C22", "title": "Save/load round trip", "statement": "Saving a state machine and loading the result into any state machine gives a state machine equal to the original, whatever the loaded-into object held before; a file written for another character or id size is rejected with an exception.", "quantifier": "every state machine with id_type of at least 16 bits", "why_tests_cant": "All table contents and sizes, including the line wrapping.", "anchors": ["include/lexertl/serialise.hpp: save, load, output_vec, input_vec"]}
{"id": "C23", "title": "UTF-8 round trip", "statement": "Decoding the bytes produced by the UTF-8 output iterator with the UTF-8 input iterator gives back every sequence of code points.", "quantifier": "every sequence of code points up to U+10FFFF", "why_tests_cant": "1.1 million code points and all sequences of them.", "anchors": ["include/lexertl/utf_iterators.hpp: basic_utf8_in_iterator, basic_utf8_out_iterator"]}
{"id": "C24", "title": "UTF-16 round trip", "statement": "Decoding the units produced by the UTF-16 output iterator with the UTF-16 input iterator gives back every sequence of Unicode scalar values.", "quantifier": "every sequence of scalar values", "why_tests_cant": "All code points and sequences.", "anchors": ["include/lexertl/utf_iterators.hpp: basic_utf16_in_iterator, basic_utf16_out_iterator"]}
{"id": "C25", "title": "UTF decoders never read past the end", "statement": "For arbitrary (also malformed or truncated) input the UTF-8 and UTF-16 input iterators never read at or beyond the end of the range; they either produce a code point after consuming at least one unit or throw.", "quantifier": "every byte/unit sequence", "why_tests_cant": "Memory safety on all malformed inputs.", "anchors": ["include/lexertl/utf_iterators.hpp: next, next2, next3, next4"]}
{"id": "C26", "title": "Byte swapping iterator is an involution", "statement": "flip applied twice gives back every value, and it reverses the byte order.", "quantifier": "every value of the width", "why_tests_cant": "2^32 values.", "anchors": ["include/lexertl/utf_iterators.hpp: basic_flip_iterator"]}
{"id": "C27", "title": "replace() keeps everything it does not replace", "statement": "replace() with a state machine without continue rules outputs the input in which each returned token is replaced and everything else is copied unchanged, in order; with an empty map it returns the input unchanged.", "quantifier": "every state machine, every input, every map", "why_tests_cant": "All inputs and all token sequences.", "anchors": ["include/lexertl/replace.hpp: replace"]}
{"id": "C28", "title": "build is all or nothing", "statement": "If generator::build throws, the destination state machine is unchanged; if it returns, the destination holds exactly the new machine regardless of what it held before.", "quantifier": "every rule set and every previous content of the destination", "why_tests_cant": "All failure points.", "anchors": ["include/lexertl/generator.hpp: build"]}
{"id": "C29", "title": "Zero-length rules are rejected exactly", "statement": "Unless match_zero_len is set, build throws if and only if some rule (outside ^/$ anchors) can match the empty string; so built machines of anchor-free rules never return empty tokens.", "quantifier": "every rule set", "why_tests_cant": "Nullability of all regexes.", "anchors": ["include/lexertl/generator.hpp: check_zero_len"]}
{"id": "C30", "title": "Suppressed rules are detected exactly", "statement": "Unless allow_suppressed_rules is set, build throws if and only if some rule can never be the result of a lookup because earlier rules match everything it matches.", "quantifier": "every rule set", "why_tests_cant": "Reachability over all inputs.", "anchors": ["include/lexertl/generator.hpp: check_suppressed, closure_ex"]}
{"id": "C31", "title": "Lexer state names", "statement": "Every pushed state name gets the next number, names and numbers are inverse to each other, INITIAL is 0, and pushing an existing name changes nothing.", "quantifier": "every history of push_state calls", "why_tests_cant": "All histories.", "anchors": ["include/lexertl/rules.hpp: push_state, state"]}
{"id": "C32", "title": "A rejected push leaves the rules unchanged", "statement": "When push throws (bad regex, bad id, unknown state) the rule set is exactly as before; when it succeeds exactly one rule per (start state, alternative) is appended and earlier rules keep their position; ids eoi/npos/skip are validated.", "quantifier": "every history of pushes", "why_tests_cant": "All error positions and histories.", "anchors": ["include/lexertl/rules.hpp: push, validate, check_for_invalid_id"]}
{"id": "C33", "title": "Compressed (byte-sliced) charsets", "statement": "For a compressed state machine the byte sequences accepted for a charset are exactly the fixed-length big-endian byte sequences of its characters.", "quantifier": "every charset over 16-bit and over 24-bit characters", "why_tests_cant": "2^21 characters and all ranges; wrong only when a range spans three or more 64K planes.", "anchors": ["include/lexertl/parser/parser.hpp: slice_range, insert_range, push_ranges"]}
{"id": "C34", "title": "Beginning-of-line anchor", "statement": "For characters of one byte, 16 bits or code points (charsets as in C01), id types wider than 8 bits and greedy rules without $: a rule of the form ^r matches only when the current position is the beginning of the input or follows a newline, there it competes with all other rules under longest match/earliest rule; all other rules match as usual both at and away from line starts.", "quantifier": "every set of rules with optional leading ^ and every input", "why_tests_cant": "As C01 for both start states.", "anchors": ["include/lexertl/parser/parser.hpp: bol, fixup_bol", "include/lexertl/generator.hpp: set_transitions", "include/lexertl/lookup.hpp: detail::bol_state"]}
{"id": "C35", "title": "End-of-line anchor", "statement": "A rule of the form r$ matches only before \\r, \\n or the end of the input and does not consume the line end.", "quantifier": "every rule set and input", "why_tests_cant": "As C01; interaction between rows that share an end-of-line state.", "anchors": ["include/lexertl/generator.hpp: fix_clashes, prune_clashes", "include/lexertl/lookup.hpp: detail::eol_state"]}
{"id": "C36", "title": "Iterator reaches end exactly at end of input", "statement": "A lexertl::iterator becomes equal to the default-constructed end iterator exactly when its token starts at the end of the input, an iterator unequal to it can be incremented, a loop until it is reached ends, and iterators without a stack that compare equal (such as copies) go through the same tokens.", "quantifier": "every state machine and input", "why_tests_cant": "Every history of increments.", "anchors": ["include/lexertl/iterator.hpp"]}
{"id": "C37", "title": "sm_to_csm keeps the automaton", "statement": "The char state machine converted from a state machine has the same states, and its outgoing transition on a character goes to the same state as in the original.", "quantifier": "every state machine and character", "why_tests_cant": "All tables.", "anchors": ["include/lexertl/sm_to_csm.hpp", "include/lexertl/state_machine.hpp: append"]}
{"id": "C38", "title": "Stream iterator delivers the stream", "statement": "Iterators over a stream deliver exactly the characters of the stream in order whatever the buffer size and increment and however many copies at older positions are alive; the end iterator is reached exactly after the last character.", "quantifier": "every stream content, buffer size, increment and history of copies and increments", "why_tests_cant": "Depends on buffer boundaries and live copies.", "anchors": ["include/lexertl/stream_shared_iterator.hpp"]}
{"id": "C39", "title": "Case-insensitive and class charsets", "statement": "With icase a single letter or range matches exactly the letters equal to it up to ASCII case (8-bit).", "quantifier": "every character and range", "why_tests_cant": "All ranges.", "anchors": ["include/lexertl/parser/tokeniser/re_tokeniser_helper.hpp: fold, charset"]}
{"id": "C40", "title": "Numeric escapes", "statement": "\\ooo and \\xhh escapes denote the character with that octal/hex value, and are rejected when the value does not fit the character type.", "quantifier": "every digit string", "why_tests_cant": "Unbounded digit strings.", "anchors": ["include/lexertl/parser/tokeniser/re_tokeniser_helper.hpp: decode_octal, decode_hex, decode_control_char"]}
{"id": "C41", "title": "Quoted text is literal", "statement": "Inside double quotes every character other than the quote and backslash escapes is matched literally.", "quantifier": "every text", "why_tests_cant": "All strings.", "anchors": ["include/lexertl/parser/tokeniser/re_tokeniser.hpp: next"]}
{"id": "C42", "title": "Result comparison and reset", "statement": "clear() and reset() put match_results in the freshly constructed state whatever happened before, so lexing again gives the same tokens.", "quantifier": "every history", "why_tests_cant": "All histories.", "anchors": ["include/lexertl/match_results.hpp: clear, reset"]}
{"id": "C43", "title": "A call of lookup does exactly what the rules say", "statement": "For every built machine (charsets as in C01, id types wider than 8 bits, greedy rules without $), every outcome of a call of lookup - token, end of input, no match, stack underflow exception - with skip rules, continue rules, push/pop rules, ^ anchors, several lexer states and zero-length rules is exactly the one described by the regular expressions of the rules: pick the longest match of the earliest rule, skip or continue or return, change state, push or pop.", "quantifier": "every rule set in the fragment, every input, every result object, every flag combination", "why_tests_cant": "Any number of skipped and continued matches, any stack depth.", "anchors": ["include/lexertl/lookup.hpp: next, lookup", "include/lexertl/generator.hpp: build"]}
{"id": "C44", "title": "Only regexes in the grammar are accepted", "statement": "If build returns without exception, then the token sequence of every rule is in the regex grammar (atoms, postfix repetition, concatenation, alternation, parentheses) or empty.", "quantifier": "every rule set made of tokens of the tokeniser with no surplus closing parenthesis", "why_tests_cant": "All token sequences.", "anchors": ["include/lexertl/parser/parser.hpp: parse, reduce", "include/lexertl/parser/tokeniser/re_token.hpp: precedence"]}
{"id": "C45", "title": "From regex texts to tokens", "statement": "After any sequence of calls of the members of a rules object (push_state, insert_macro, push, clear, flags), if build takes the rules then every rule is in the grammar, lexing with the machine never leaves its tables, the input or the stack, and (charsets as in C01, no $ and no non-greedy operators) every call of lookup returns exactly what the rules say.", "quantifier": "every history of calls, every text, every input", "why_tests_cant": "All texts, histories and inputs.", "anchors": ["include/lexertl/rules.hpp: push, insert_macro, tokenise", "include/lexertl/parser/tokeniser/re_tokeniser.hpp: next", "include/lexertl/generator.hpp: build", "include/lexertl/lookup.hpp: next"]}
{"id": "C46", "title": "Every regex text is taken or refused", "statement": "push and insert_macro return or throw for every text, state name list and target text: they never read outside the text or a container and never run for ever (macros that refer to themselves and macro definitions that failed half way excepted).", "quantifier": "every text, after every history", "why_tests_cant": "All strings, all histories.", "anchors": ["include/lexertl/rules.hpp: push, insert_macro, tokenise", "include/lexertl/parser/tokeniser/re_tokeniser.hpp: next", "include/lexertl/parser/tokeniser/re_tokeniser_helper.hpp"]}
{"id": "C47", "title": "Chained UTF iterators transcode", "statement": "A UTF-8 output iterator over a UTF-16 input iterator gives the UTF-8 text of the same scalar values, and the other way round.", "quantifier": "every sequence of Unicode scalar values", "why_tests_cant": "All sequences.", "anchors": ["include/lexertl/utf_iterators.hpp: basic_utf8_out_iterator, basic_utf16_in_iterator, basic_utf8_in_iterator, basic_utf16_out_iterator"]}
{"id": "C48", "title": "Moving a UTF iterator on and back", "statement": "Over well-formed text it + n moves n code points on and it - n from there returns to the same position and the same code point.", "quantifier": "every well-formed text, position and distance", "why_tests_cant": "All texts and positions.", "anchors": ["include/lexertl/utf_iterators.hpp: operator +, operator -"]}
{"id": "C49", "title": "What a regex text means", "statement": "A regex text written by the documented syntax (charsets and classes, escapes, quotes, comments, options, repeats, alternation, parentheses, {-} and {+}, macros) has exactly one meaning; push and insert_macro accept it, and the lexer built from a program of such texts returns the longest match of the expressions they mean, the earliest rule first.", "quantifier": "every text of the documented syntax, every program of macros and rules, every input", "why_tests_cant": "All texts, programs and inputs.", "anchors": ["include/lexertl/rules.hpp: push, insert_macro, tokenise", "include/lexertl/parser/tokeniser/re_tokeniser.hpp: next", "include/lexertl/parser/tokeniser/re_tokeniser_helper.hpp: charset, escape_sequence, fold"]}
{"id": "C50", "title": "Non-greedy operators", "statement": "With rules that have non-greedy operators (??, *?, +?, {n,m}?) every reported text is matched by the reported rule, which is the first to match it; a text shorter than the longest match is reported only for a rule with a non-greedy operator, and the no-match id only where no rule matches. A rule all of whose later characters are asked for by greedy operators (numbers, identifiers, white space) is never cut short: after a non-empty token no such rule matches a longer text.", "quantifier": "every rule set of C35 with non-greedy operators, every input", "why_tests_cant": "All rule sets and inputs; the pruning of transitions depends on the order in which position sets are met.", "anchors": ["include/lexertl/generator.hpp: build_dfa, closure", "include/lexertl/equivset.hpp: process_greedy, intersect", "include/lexertl/parser/tree/leaf_node.hpp: greedy", "include/lexertl/lookup.hpp: next"]}
{"id": "C51", "title": "Generated lexers", "statement": "The C++ function written by table_based_cpp::generate_cpp returns, for every input, the tokens, lexer states and stacks that lookup returns with the state machine it was written from, with or without pointers in the tables.", "quantifier": "every state machine, every input and result object, any number of calls", "why_tests_cant": "All machines and inputs; what is generated depends on which features the machine has.", "anchors": ["include/lexertl/generate_cpp.hpp: generate, dump_tables, dump_row, output_char_loop, output_quit", "include/lexertl/lookup.hpp: next"]}
{"id": "C52", "title": "Flags that are not needed", "statement": "Two result objects whose flags both include what the state machine needs (^, $, several lexer states, a stack) get the same tokens from it, whatever further flags they have.", "quantifier": "every state machine whose features say what it contains, every pair of flag sets, every input and number of calls", "why_tests_cant": "All machines, flag sets and inputs.", "anchors": ["include/lexertl/lookup.hpp: lookup, next, lookup_state", "include/lexertl/match_results.hpp: match_results, recursive_match_results", "include/lexertl/enums.hpp: feature_bit"]}
{"id": "C53", "title": "Unicode property escapes", "statement": "A rule \\p{name}, for a name known to the library, takes exactly the characters its tables give this property, alone or between brackets; a name that is not known, or a property with characters the character type cannot hold, is refused without changing the rules.", "quantifier": "every name of the tables, every character, every flags and text around the escape", "why_tests_cant": "557 names and 1114112 code points, in all contexts.", "anchors": ["include/lexertl/parser/tokeniser/unicode.hpp", "include/lexertl/parser/tokeniser/blocks.hpp", "include/lexertl/parser/tokeniser/scripts.hpp", "include/lexertl/parser/tokeniser/table.inc", "include/lexertl/parser/tokeniser/re_tokeniser_helper.hpp: unicode_escape, charset, posix"]}
{"id": "C54", "title": "Unicode properties classify the characters", "statement": "Every assigned character has exactly one general category, one block and one script; the names for groups of categories have the members of these categories.", "quantifier": "every code point, every pair of names", "why_tests_cant": "All 1114112 code points and 557 names.", "anchors": ["include/lexertl/parser/tokeniser/unicode.hpp", "include/lexertl/parser/tokeniser/blocks.hpp", "include/lexertl/parser/tokeniser/scripts.hpp"]}
{"id": "C55", "title": "Features of a machine", "statement": "The feature bits of a state machine built from rules say what it contains: after any calls of the members of a rules object, a machine whose bit for ^, $, skip, again or recursive is not set has no rule that needs it; a bit that is set is there because of some rule; and the bit for several lexer states is set exactly if there are several.", "quantifier": "every history of calls, every rule text, every machine built from it", "why_tests_cant": "All histories and texts; a missing bit shows only for certain texts.", "anchors": ["include/lexertl/rules.hpp: push", "include/lexertl/generator.hpp: build, create", "include/lexertl/enums.hpp: feature_bit"]}
{"id": "C56", "title": "Enclosed texts end at the first closing text", "statement": "A rule made of an opening text, one character expression repeated with *? and a closing text, such as /\\*(.|\\n)*?\\*/, takes the text up to the end of its first match, and not up to a later closing text: the token ends there, or, if the rule is skipped, the call goes on there.", "quantifier": "every rule of this form (each charset of the closing text within the repeated set or disjoint from it), in every rule set over single byte characters, in a state without ^, every input and position, provided no other rule matches a text that starts with the enclosed text and no other non-greedy rule ends earlier", "why_tests_cant": "All inputs and rule sets: the non-greedy operators work by removing transitions, and whether the right ones go depends on all position sets of the machine.", "anchors": ["include/lexertl/generator.hpp: build_dfa, closure", "include/lexertl/equivset.hpp: process_greedy, intersect", "include/lexertl/parser/tree/iteration_node.hpp", "include/lexertl/lookup.hpp: next"]}
{"id": "C57", "title": "Memory files", "statement": "data() and size() of a memory file are the contents of the file opened last, in whole characters, or null and 0 if that failed or the file was closed. Its functions touch no descriptor and no page of anyone else. After close or destruction nothing the object asked for is left open or mapped.", "quantifier": "every history of making, opening, closing and destroying any number of memory files, every answer of the operating system, interleaved with anything the rest of the program does", "why_tests_cant": "All histories and all failures of open, fstat and mmap at every point of them.", "anchors": ["include/lexertl/memory_file.hpp: open, close, data, size"]}
{"id": "C58", "title": "Printed machines", "statement": "debug::dump of a char state machine prints every machine. The text printed for the characters of a transition, used as a regex, matches exactly these characters. Machines with the same dump have the same states, transitions, end states, ids and stack operations.", "quantifier": "every char state machine (with any charsets and any numbers of lexer states and states), every charset, every character type", "why_tests_cant": "All charsets and machines: whether a printed text can be read depends on which characters stand next to each other.", "anchors": ["include/lexertl/debug.hpp: dump, dump_ex", "include/lexertl/string_token.hpp: escape_char, negate, negatable", "include/lexertl/stream_num.hpp"]}
{"id": "C59", "title": "Rules with non-greedy operators", "statement": "A token is the text of a match of the regex of its rule, also if regexes have non-greedy operators (those at the end of a regex repeat as few times as they allow): of those matching this text it is the first. If the regex of the reported rule has no non-greedy operator, then no regex matches a longer text. Where npos is reported, no regex matches anything.", "quantifier": "every program of macros and rules given as texts with a meaning, non-greedy operators anywhere in them, every input, every call of lookup", "why_tests_cant": "The texts are rewritten and split before they are parsed; whether this keeps what they match depends on the whole regex.", "anchors": ["include/lexertl/rules.hpp: push, tokenise, split", "include/lexertl/abstemious.hpp: prune, is_end, end_block, remove_sequence", "include/lexertl/generator.hpp: build", "include/lexertl/lookup.hpp"]}
{"id": "C60", "title": "Rules with anchors, given as texts", "statement": "A token is a text which the regex of its rule matches, where ^ is satisfied at the starts of lines and $ at their ends: the first regex to match it by $, or the first to match it without. No regex matches a longer text. Where npos is reported, no regex matches anything.", "quantifier": "every program of macros and rules given as texts with a meaning, with ^ and $, every input, every call of lookup of a lexer with line start and line end support", "why_tests_cant": "All texts, rule sets and inputs: anchors go through the tokeniser, the parser, the alphabet, the pruning of line end transitions and the lookup before they decide a token.", "anchors": ["include/lexertl/rules.hpp: push, tokenise", "include/lexertl/generator.hpp: build, fix_clashes, prune_eol", "include/lexertl/lookup.hpp: bol_start_state, eol_start_state"]}
{"id": "C61", "title": "Lexers with several states, given as texts", "statement": "A rule set with named lexer states, macros and rules for lists of states (or *), each leading to a state (., NAME, >NAME, >NAME:BACK or <), is accepted, and the states get the numbers of their order. Each call of lookup, from any state and stack, then does what the texts say: it takes the longest match of the regexes of the state, of several the earliest rule, skips and continues tokens, goes on in the state the rule leads to, and pushes and pops the states to return to.", "quantifier": "every program of lexer states, macros and rules given as texts with a meaning, without $ and non-greedy operators, every input, lexer state, stack and call of lookup", "why_tests_cant": "All programs, inputs and stacks: names are resolved when a rule is added, and a wrong number shows only in a certain state with a certain stack.", "anchors": ["include/lexertl/rules.hpp: push_state, push, check_for_invalid_id, validate", "include/lexertl/generator.hpp: build", "include/lexertl/lookup.hpp: next, pop"]}
{"id": "C62", "title": "Char state machines from the generator", "statement": "Building a char state machine from rules gives the machine that sm_to_csm makes of the state machine built from them, and throws when building the state machine throws, leaving the destination as it was. In each lexer state, the texts leading from the start state (at the start of a line: from the state for that, if any) to an end state are exactly those some rule matches there, and the end state has the id, user id, next lexer state and stack operation of the earliest such rule.", "quantifier": "every list of rules with any number of lexer states (the second sentence: greedy rules without $, ^ only first), every text, at the start of a line and elsewhere", "why_tests_cant": "All rule sets and texts: the machine is made by different code (other template branches) than the state machine whose tokens tests compare.", "anchors": ["include/lexertl/generator.hpp: build, build_dfa, append_dfa, create", "include/lexertl/state_machine.hpp: basic_char_state_machine::append", "include/lexertl/sm_to_csm.hpp", "include/lexertl/sm_traits.hpp"]}
{"id": "C63", "title": "The text of generated tables", "statement": "For every state machine, table_based_cpp::generate writes tables that read, as C++ text, as declarations of the character tables, of the row lengths, of one array per lexer state and, with several lexer states, of the list of these arrays. Their elements are those of the machine, in order (with pointers, transitions are addresses of rows), so machines whose texts read the same have the same tables. Each array is named as its elements name it.", "quantifier": "every state machine fit for lookup with at least one lexer state, every indentation, with and without pointers", "why_tests_cant": "All machines: commas, braces, line ends, number bases and names depend on the position of an element and on the number of rows and lexer states.", "anchors": ["include/lexertl/generate_cpp.hpp: dump_tables, dump_row, output_tabs"]}
{"id": "C64", "title": "Graphs of machines", "statement": "dot::dump writes a text in the DOT language, for every machine. Its graph has one node for each state, named by lexer state and state, the start states labelled with the names of the lexer states, the other end states as double circles with their ids; one edge for each transition, labelled with its characters; and, with several lexer states, a dashed edge from each end state to the start of the next lexer state. The graph shows everything that decides which texts are tokens.", "quantifier": "every machine with any numbers of lexer states and states, every history of the rules object the names are taken from", "why_tests_cant": "All machines and charsets: whether the text can be read depends on the characters in it.", "anchors": ["include/lexertl/dot.hpp: dump, dump_ex, dump_ranges, double_escape_char, node_name"]}
{"id": "C65", "title": "The example program wc", "statement": "The example program wc, run on any file of less than 2^31 bytes, ends without a failed assertion and prints the number of newline characters, the number of words and the number of bytes of the file. A word starts at each character other than space, tab and newline that is the first one of the file or follows one of these, except the first half of a carriage return and newline.", "quantifier": "every file content of less than 2^31 bytes, every layout of memory", "why_tests_cant": "All file contents: the counts depend on which rule takes each part of the file, for every interleaving of words, blanks, carriage returns and newlines.", "anchors": ["examples/wc/main.cpp: main", "include/lexertl/rules.hpp: insert_macro, push", "include/lexertl/generator.hpp: build", "include/lexertl/lookup.hpp: lookup"]}
{"id": "C66", "title": "The example program calc", "statement": "The example program calc ends for every line of input. It prints the value of every arithmetic expression of numbers, parentheses, signs and the operators + - * / % (with the usual precedences, from left to right) whose values on the way are ints, and an error for every other text. Its stacks are never empty when something is taken from them.", "quantifier": "every text, of any length and with any nesting of parentheses; every layout of memory", "why_tests_cant": "All texts: nesting is unbounded, and which operators are pending at an operator depends on everything before it.", "anchors": ["examples/calc/main.cpp: gen_calc, reduce, calc", "include/lexertl/rules.hpp: push_state, push", "include/lexertl/generator.hpp: build", "include/lexertl/lookup.hpp: lookup"]}
{"id": "C67", "title": "The example program json", "statement": "The JSON example ends for every text, without exception. Its output tells whether the text is a JSON text whose value is an object or an array: if and only if it is, the printed size of the stack is 0, at least one line is printed and no line has the id npos. The lines are then the tokens of the text, in order: brackets, names, strings without their quotes, numbers, true, false and null.", "quantifier": "every text of code points, of any length and with any nesting of objects and arrays; every layout of memory", "why_tests_cant": "All texts: nesting is unbounded, and which rule applies depends on the lexer state and on the stack, so on everything before.", "anchors": ["examples/json/main.cpp: main", "include/lexertl/rules.hpp: insert_macro, push_state, push", "include/lexertl/generator.hpp: build", "include/lexertl/lookup.hpp: lookup"]}
{"id": "C68", "title": "Nested text is one token", "statement": "Rules without id that push a lexer state, and rules that pop it, bracket text that may be nested to any depth, such as nested comments. If such an opening rule is chosen where a call of lookup starts, and after nested text a popping rule with an id, the call returns everything from the opening to its own closing as one token with that id, with the stack as before and in the pushed lexer state. If the text is not closed before the end of the input, the call reports the end of the input, with everything from the opening on as its text, and the opening stays on the stack.", "quantifier": "every greedy rule set without $, every input, every nesting depth and every stack (not itself inside an opening without id)", "why_tests_cant": "All inputs: nesting is unbounded, and whether a closing ends the token depends on the whole stack.", "anchors": ["include/lexertl/lookup.hpp: next, pop, lookup", "include/lexertl/rules.hpp: push", "include/lexertl/generator.hpp: build"]}
{"id": "C69", "title": "The example program ocaml", "statement": "The lexer of the OCaml example ends for every text, without exception and without reading outside its array of names. It prints every comment, with the comments nested in it, as one token; every other token as long as possible, with the name of the first kind that fits; no character other than blanks is lost. String, character and integer literals of OCaml are printed as tokens of these kinds.", "quantifier": "every text of bytes, of any length and with any nesting of comments; every layout of memory", "why_tests_cant": "All texts: nesting is unbounded, and tokens depend on which of all rules takes the most.", "anchors": ["examples/ocaml/main.cpp: main", "include/lexertl/rules.hpp: insert_macro, push_state, push", "include/lexertl/generator.hpp: build", "include/lexertl/lookup.hpp: lookup"]}
{"id": "C70", "title": "Lexing can be resumed", "statement": "What a call of lookup does depends only on the characters from the end of the last token to the end of the input, on the lexer state, the stack and whether this is the start of a line. So lexing can be stopped after any token and resumed later on the rest of the text alone, with a new result object that has the same lexer state, stack and start of line flag: all further calls return the same ids, user ids, lexer states, stacks and texts. Characters behind the end of the input play no role.", "quantifier": "every machine (built or not), all flags and inputs, every result object within its input, any number of calls, also those that throw or do not return", "why_tests_cant": "All inputs and histories: the claim compares two runs on texts of any length.", "anchors": ["include/lexertl/lookup.hpp: next, lookup_state, lookup", "include/lexertl/match_results.hpp: match_results, recursive_match_results"]}
{"id": "C71", "title": "Added rules and the order of rules", "statement": "A rule added after the rules of a lexer state changes a token only where it matches a text that no other rule matches and for which no other rule matches a longer one; there the token becomes the longest text the new rule matches. The order of the rules of a lexer state matters only for texts matched by two rules with different ids. Rules of other lexer states do not matter. Only the texts a rule matches count, not how its regex is written, and a rule all of whose texts are matched by earlier rules can be left out.", "quantifier": "every pair of built machines with any number of lexer states, every input, position, state and stack; greedy rules (order, texts and left out rules: with `^` at the start, skip and continue rules, push and pop and empty matches; an added rule: without these)", "why_tests_cant": "All rule sets and inputs: rules are compiled together into one automaton, so each rule could affect every token.", "anchors": ["include/lexertl/generator.hpp: build, closure", "include/lexertl/lookup.hpp: lookup"]}
{"id": "C72", "title": "How far a token looks ahead", "statement": "A token depends only on the characters up to the first position from which no rule can go on, that is, such that no rule matches any text that starts with the characters from the start of the token to there. Whatever follows there, and also if the input ends there, lookup returns the same token. With several lexer states, a stack, skip rules and `^` this holds of a call of lookup, if no rule can go on from any position between the start of the call and the start of the token.", "quantifier": "every built machine, every pair of inputs that agree up to such a position; greedy rules, with `^` at the start only; the start of the token is the bound where no token is continued, otherwise all positions before", "why_tests_cant": "All continuations of a text: there are infinitely many.", "anchors": ["include/lexertl/lookup.hpp: next, lookup", "include/lexertl/generator.hpp: build"]}
{"id": "C73", "title": "A text can be cut", "statement": "If no rule matches a text that begins in one part of the input and ends in the next part, the tokens of the whole input are those of the first part followed by those of the second part, with positions counted from the start of the input: the parts can be lexed separately. With several lexer states, a stack, skip rules and `^`: a call on the first part that returns a token does the same on the whole text, and a call that comes to the end of the first part outside a token does on the whole text what a call on the second part does from the lexer state and stack reached.", "quantifier": "every built machine, every pair of texts; greedy rules, with `^` at the start only; all calls up to the end for machines with one lexer state, rules without `^` that match no empty text and have ids other than skip and that of the end of input, and flag advance set", "why_tests_cant": "All texts, all places to cut, and any number of calls.", "anchors": ["include/lexertl/lookup.hpp: next, lookup", "include/lexertl/match_results.hpp: match_results"]}
{"id": "C74", "title": "Characters that no rule tells apart", "statement": "If every character set of the rules of a lexer state contains a character c if and only if it contains its replacement g(c), replacing each character c of the input by g(c) changes no token: same texts by position, same ids and user ids. This also holds with several lexer states, a stack, skip rules and `^`, if g keeps the newline and only the newline. In particular, if case is ignored (8-bit characters, ASCII locale) and no regex switches this off, the case of letters in the input does not matter, for all regexes and macros.", "quantifier": "every built machine with any number of lexer states, every replacement, every input, position, state and stack; greedy rules (a single call with `^` allowed at the start; all calls up to the end for rules without anchors and skip)", "why_tests_cant": "All replacements and inputs: characters are merged into columns of the tables, for wide characters byte by byte.", "anchors": ["include/lexertl/generator.hpp: partition_charsets, build_set_mapping, fill_lookup", "include/lexertl/lookup.hpp: next, lookup"]}
{"id": "C75", "title": "Numbers of lexer states and ids do not matter", "statement": "If the lexer states of a lexer are declared in another order and the ids and user ids of its rules are given other numbers (the ids for skipping and for the end of input keeping their meaning), lookup does the same: same token positions, same exceptions, the same stack depth, and ids, user ids, lexer states and stack entries translated to the new numbers. This holds for any number of calls.", "quantifier": "every pair of built machines with such rules, every translation of numbers, every input, position, lexer state and stack, any number of calls; greedy rules without $, ^ only first", "why_tests_cant": "All rule sets, translations and inputs: the numbers are indices into vectors of tables and share columns with markers such as npos.", "anchors": ["include/lexertl/generator.hpp: build, build_dfa", "include/lexertl/lookup.hpp: next, lookup"]}
