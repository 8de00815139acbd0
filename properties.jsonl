{"id": "C01", "title": "A failed match consumes nothing", "statement": "Whenever a generated rule function (or any combination of the parser_core combinators and _var_name / _var_name_indirect_left_recursion) returns (false, q) for start position p, then q = p.", "quantifier": "every grammar (left recursive or not, with hooked calls that hand back an inner result or fail in place), every source, every start position, every reachable parser state", "why_tests_cant": "a test exercises one grammar on one input; backtracking correctness must hold for every nesting of combinators and every cache content", "anchors": ["parser/src/parser_core.rs:*_kernel", "parser/src/var_name.rs:_var_name_kernel", "parser/src/var_name.rs:_var_name_kernel_indirect_left_recursion"]}
{"id": "C02", "title": "Positions only move forward and stay inside the source", "statement": "A generated rule function called at p returns a position q with q = p or p < q <= source length; consequently no position arithmetic of the parser ever overflows u32.", "quantifier": "every grammar, source, start position and reachable state", "why_tests_cant": "needs an invariant over all cached results, not a sample of inputs", "anchors": ["parser/src/parser_core.rs:_terminal_kernel", "parser/src/parser_core.rs:_string_terminal_kernel_ascii_opt", "parser/src/var_name.rs", "parser/src/source.rs:get_char"]}
{"id": "C03", "title": "Parsing never panics", "statement": "Running a generated parser from a fresh context never triggers an out-of-range node index, an `expect` of the left-recursion bookkeeping, or the `Cannot connect a Node to itself` debug assertion.", "quantifier": "every grammar, including arbitrary left-recursive ones with arbitrary involved sets, every source, every start position", "why_tests_cant": "the expects guard states that only arise from particular interleavings of nested growths; tests can only visit some", "anchors": ["parser/src/var_name.rs:should_go_into_growth_function", "parser/src/var_name.rs:_var_name_kernel_growth_function", "parser/src/cache.rs:rule_in_eval_set", "parser/src/publisher.rs:connect"]}
{"id": "C04", "title": "Memoised parsing agrees with PEG semantics (soundness)", "statement": "For grammars without left recursion, if the generated parser returns (b, q) for an expression at p then the standard unmemoised PEG semantics gives exactly (b, q).", "quantifier": "every non-left-recursive grammar, source, expression, position, and every cache state reachable from a fresh context", "why_tests_cant": "cache hits depend on the whole evaluation history; equality with the specification must hold for all of them", "anchors": ["parser/src/var_name.rs:_var_name_kernel", "parser/src/var_name.rs:default_behaviour", "parser/src/var_name.rs:memoized_behaviour", "parser/src/cache.rs:insert", "parser/src/cache.rs:check"]}
{"id": "C05", "title": "Memoised parsing agrees with PEG semantics (completeness)", "statement": "For grammars without left recursion, whenever the PEG semantics assigns a result to an expression at p, the generated parser terminates normally and returns that result.", "quantifier": "every non-left-recursive grammar, source, expression, position", "why_tests_cant": "a liveness statement over all derivations", "anchors": ["parser/src/var_name.rs:_var_name_kernel", "parser/src/parser_core.rs"]}
{"id": "C06", "title": "Memoisation is invisible in the syntax tree", "statement": "For grammars without left recursion, the tree returned by `parse` (after clear_false) is exactly the tree of rule invocations of the unmemoised PEG evaluation, pruned of failed and of empty invocations, under a root node (Grammar,0,0,true).", "quantifier": "every non-left-recursive grammar and every source on which the PEG semantics has a result", "why_tests_cant": "sharing of memoised nodes creates a DAG whose unfolding must equal the tree for every evaluation history", "anchors": ["parser/src/parse.rs:parse", "parser/src/publisher.rs:clear_false", "parser/src/publisher.rs:clear_false_kernel", "parser/src/var_name.rs:memoized_behaviour"]}
{"id": "C07", "title": "Well-formed grammars terminate on every input", "statement": "If the ordinary (non left-recursive) rule references form no non-consuming cycle and no repeated expression can match the empty string, then the generated parser terminates on every source, even when other references are left recursive.", "quantifier": "every grammar with such a certificate, every source, start position", "why_tests_cant": "termination for all inputs is not testable", "anchors": ["parser/src/var_name.rs:_var_name_kernel_growth_function", "parser/src/parser_core.rs:_zero_or_more_kernel", "parser/src/parser_core.rs:_one_or_more_kernel"]}
{"id": "C08", "title": "The DSL parser is total", "statement": "parser::parse terminates on every source: it returns a result or panics because the arena's 32-bit keys are exhausted; on every source below 82 million bytes it returns, without panic, and with the result the PEG semantics of the DSL grammar gives.", "quantifier": "every source string", "why_tests_cant": "termination and absence of panics over all inputs", "anchors": ["parser/src/parser.rs", "parser/src/parse.rs:parse", "parser/Grammar.dsl"]}
{"id": "C09", "title": "Packrat bound", "statement": "For grammars without left recursion, each (rule, position) pair is evaluated at most once, so a terminating parse allocates at most 1 + (number of rules) * (source length + 1) syntax nodes.", "quantifier": "every non-left-recursive grammar with finitely many rules, every source", "why_tests_cant": "a bound over all inputs and evaluation histories", "anchors": ["parser/src/var_name.rs:_var_name_kernel", "parser/src/var_name.rs:default_behaviour", "parser/src/publisher.rs:add_node"]}
{"id": "C10", "title": "Predicates look ahead without consuming", "statement": "&e and !e never move the position; &e succeeds iff e succeeds at that position, and !e succeeds iff e fails.", "quantifier": "every expression e, source, position, state", "why_tests_cant": "must hold for every e", "anchors": ["parser/src/parser_core.rs:_and_predicate_kernel", "parser/src/parser_core.rs:_not_predicate_kernel"]}
{"id": "C11", "title": "Repetition is greedy", "statement": "e* always succeeds; e+ succeeds iff e succeeds at the start; both stop exactly at the first position, following successive matches of e, at which e fails.", "quantifier": "every expression, source, position, state for which the loop ends", "why_tests_cant": "unbounded number of iterations", "anchors": ["parser/src/parser_core.rs:_zero_or_more_kernel", "parser/src/parser_core.rs:_one_or_more_kernel"]}
{"id": "C12", "title": "Repeating an empty match hangs", "statement": "If e succeeds at p without consuming (and keeps doing so), then e* and e+ at p never return; in particular a rule such as ('x'?)* does not terminate at end of input.", "quantifier": "every expression that keeps succeeding in place; every amount of execution steps", "why_tests_cant": "non-termination cannot be observed by a finite test", "anchors": ["parser/src/parser_core.rs:_zero_or_more_kernel", "parser/src/parser_core.rs:_one_or_more_kernel"]}
{"id": "C13", "title": "Terminals match exactly their bytes", "statement": "A terminal, character range or string terminal at p succeeds exactly when the source bytes from p are, respectively, the byte, a byte within the inclusive range, the whole byte string; it then advances by exactly that many bytes, and otherwise fails in place, also at and beyond the end of the source.", "quantifier": "every source, position, byte, range, byte string", "why_tests_cant": "all positions including those past the end, all lengths", "anchors": ["parser/src/parser_core.rs:_terminal_kernel", "parser/src/parser_core.rs:_ordered_choice_match_range_kernel", "parser/src/parser_core.rs:_string_terminal_kernel_ascii_opt"]}
{"id": "C14", "title": "Ordered choice is prioritised and exclusive", "statement": "a / b returns a's result whenever a succeeds, and otherwise exactly what b returns from the same start position; b is never run when a succeeds.", "quantifier": "every pair of expressions, source, position, state", "why_tests_cant": "for all a and b", "anchors": ["parser/src/parser_core.rs:_ordered_choice_kernel"]}
{"id": "C15", "title": "Inline is transparent", "statement": "Marking rules Inline (calling them directly instead of through the memo table) changes neither the acceptance nor the end position of any parse of a grammar without left recursion.", "quantifier": "every pair of grammars differing only in which references are inlined, every source", "why_tests_cant": "quantifies over all grammars and all ways to inline", "anchors": ["generator/src/constructor.rs:var_name", "parser/src/var_name.rs:_var_name_kernel"]}
{"id": "C16", "title": "The node graph is a finite forest of valid keys", "statement": "After any parse, every child key stored in a node designates an existing node, no node is its own descendant, and the root key 0 is nobody's child.", "quantifier": "every grammar including left-recursive ones, every source", "why_tests_cant": "cycles could only arise through particular memo/growth interleavings", "anchors": ["parser/src/publisher.rs:connect", "parser/src/publisher.rs:connect_if_not_connected", "parser/src/var_name.rs"]}
{"id": "C17", "title": "The cleaned tree holds only real, non-empty matches", "statement": "In the tree returned by parse, every node below the root has result true and start < end <= source length.", "quantifier": "every grammar including left-recursive ones, every source", "why_tests_cant": "invariant over all nodes of all trees", "anchors": ["parser/src/publisher.rs:clear_false", "parser/src/publisher.rs:clear_false_kernel"]}
{"id": "C18", "title": "Every syntax node is a genuine derivation", "statement": "For every node below the root of the returned tree, the text between its start and end positions is derivable from its rule in the context-free grammar underlying the PEG.", "quantifier": "every grammar including left-recursive ones, every source", "why_tests_cant": "left-recursion seeds and memo hits make it possible for nodes to carry spans of other attempts; must hold for all histories", "anchors": ["parser/src/var_name.rs:_var_name_kernel_growth_function", "parser/src/var_name.rs:_var_name_kernel_indirect_left_recursion", "parser/src/publisher.rs:clear_false"]}
{"id": "C19", "title": "Tree equality means same tree", "statement": "== on two trees is true exactly when their root-reachable trees agree in rule, start, end, result and shape, regardless of keys; it is reflexive, symmetric and transitive and ignores unreachable nodes.", "quantifier": "every pair of acyclic trees", "why_tests_cant": "recursive equality over all shapes", "anchors": ["parser/src/publisher.rs:partial_eq_kernel", "parser/src/publisher.rs:PartialEq for Node"]}
{"id": "C20", "title": "Children start within their parent, but may end after it", "statement": "In the cleaned tree every child starts at or after its parent's start; a child may end after its parent, and siblings may be duplicated, because children recorded by failed alternatives and lookahead are kept.", "quantifier": "every grammar, source and node", "why_tests_cant": "requires an invariant (start) and a witness (end)", "anchors": ["parser/src/publisher.rs:clear_false_kernel", "parser/src/parser_core.rs:_ordered_choice_kernel", "parser/src/parser_core.rs:_and_predicate_kernel"]}
{"id": "C21", "title": "Asking again gives the same answer", "statement": "Calling the same memoised rule at the same position again in the same context returns the same (bool, position) and leaves the memo table unchanged.", "quantifier": "every grammar, rule, position, state after a completed call", "why_tests_cant": "all histories between the calls", "anchors": ["parser/src/var_name.rs:_var_name_kernel", "parser/src/cache.rs:check"]}
{"id": "C22", "title": "Direct left recursion parses like iteration", "statement": "For a rule A = (A, b) / a (marked left recursive with itself as only involved rule) whose a and b do not use left recursion, a call of A at p made while no left recursion is being grown succeeds iff a succeeds at p consuming at least one byte, and ends where greedily repeating b (while it advances) after a ends. (A seed that matches empty is C51; a use of A inside b is C23.)", "quantifier": "every such grammar with non-left-recursive a and b, every source and position", "why_tests_cant": "unbounded growth loop; all inputs", "anchors": ["parser/src/var_name.rs:_var_name_kernel_growth_function", "parser/src/var_name.rs:should_go_into_growth_function"]}
{"id": "C23", "title": "A left-recursive rule referenced again inside its own growth starts no new match", "statement": "While the growth of a left-recursive rule is active, a left-recursive reference to a rule of its involved set that was already evaluated this round starts no match: it answers the memo at that position or fails in place, even behind consumed input. Consequently E = (E,'+',E)/'1' never matches more than one '1' on any source, and expr = (expr,'+',prim)/prim with prim = ('(',expr,')')/'1' rejects every source starting with '(' (\"(1)\" included). If another left-recursive rule grows in between (expr over term over prim), the parser does agree with the iterative PEG grammar on every source, parentheses included.", "quantifier": "every grammar, source, position and parser state for the general statement; every source for the three grammars", "why_tests_cant": "the claim quantifies over all grammars and inputs", "anchors": ["parser/src/var_name.rs:should_go_into_growth_function", "parser/src/var_name.rs:_var_name_kernel_indirect_left_recursion"]}
{"id": "C24", "title": "Whatever a left-recursive parser accepts is derivable", "statement": "If a generated parser (left recursive or not) accepts source[p..q] for an expression then that text is derivable from the expression in the underlying context-free grammar.", "quantifier": "every grammar, involved sets, source, position, reachable state", "why_tests_cant": "growth re-evaluates with evolving seeds; all histories", "anchors": ["parser/src/var_name.rs:_var_name_kernel_growth_function"]}
{"id": "C25", "title": "Every rule on a leftmost-reference cycle is treated as left recursive", "statement": "LeftRecursionDetector, when it returns, flags a rule iff a chain of leftmost references (as the generator sees them: first element of a sequence, every alternative but the last, nothing below * and ?) leads from it to a cycle, and the involved set of a flagged rule contains exactly the flagged rules it leads to, itself included.", "quantifier": "every leftmost-reference graph", "why_tests_cant": "all graphs", "anchors": ["generator/src/cycle_detector.rs:RuleCallTree"]}
{"id": "C26", "title": "Detection does not depend on hash order", "statement": "The set of flagged rules and their involved sets are the same whatever order the hash maps are iterated in, in every pass.", "quantifier": "every graph and every iteration order in every pass", "why_tests_cant": "hash order is randomised per process; tests see a few orders", "anchors": ["generator/src/cycle_detector.rs:cleanup_left_most_called_rules", "generator/src/cycle_detector.rs:loop_over_referenced_rules", "generator/src/cycle_detector.rs:merge_dependent_sets"]}
{"id": "C27", "title": "Left recursion the generator sees terminates; left recursion it does not see hangs", "statement": "If every cycle of references that may be evaluated before consuming contains a reference the generator recognises as left recursive, and no repeated expression may match empty, the generated parser terminates on every source. Where the generator sees no left recursion but a rule needs itself at the same position (recursion in the last alternative of a choice, or after an element that can match empty), the code is generated without complaint and the parser never returns.", "quantifier": "claim over all grammars; refuted by witnesses with non-termination proved for every number of steps", "why_tests_cant": "non-termination and all-grammar quantification", "anchors": ["generator/src/cycle_detector.rs:get_left_most_called_rules_of_rule"]}
{"id": "C28", "title": "Detector panics exactly on dangling leftmost references", "statement": "Building the left-recursion information panics iff some declared rule has a leftmost reference to a name that is not declared; otherwise it returns.", "quantifier": "every graph", "why_tests_cant": "all graphs", "anchors": ["generator/src/cycle_detector.rs:merge_dependent_sets"]}
{"id": "C29", "title": "Symbol table lists each declared rule once, sorted", "statement": "SymbolTable::get_names is strictly sorted and contains exactly the declared names.", "quantifier": "every grammar tree", "why_tests_cant": "all lists", "anchors": ["generator/src/symbol_table.rs:run_duplication_check", "generator/src/symbol_table.rs:create_symbol_table_from_tree_kernel"]}
{"id": "C30", "title": "RULES_SIZE counts the enum variants", "statement": "The generated RULES_SIZE equals the number of variants emitted, which are the capitalised names of the non-inlined declared rules; two rules differing only in the case of the first letter collide.", "quantifier": "every symbol table", "why_tests_cant": "all tables", "anchors": ["generator/src/constructor.rs:generate_rules_enum"]}
{"id": "C31", "title": "Generated code is well scoped", "statement": "In the emitted body of every rule, each closure is defined exactly once and only refers to closures defined on earlier lines; the final line calls the last one.", "quantifier": "every rule tree", "why_tests_cant": "all trees", "anchors": ["generator/src/binary_wo.rs:match_ref", "generator/src/constructor.rs:rhs"]}
{"id": "C32", "title": "Code generation preserves meaning", "statement": "Executing the emitted let-statements in order yields the closure denoted by the rule's expression tree: choices and sequences associate left, postfix and prefix operators apply to their nucleus, each left-recursive reference uses its own involved set.", "quantifier": "every rule expression tree", "why_tests_cant": "compiler correctness over all trees", "anchors": ["generator/src/binary_wo.rs", "generator/src/constructor.rs"]}
{"id": "C33", "title": "The empty terminal '' does not match the empty string", "statement": "README says a terminal may hold no character; the code emitted for '' instead matches exactly two double-quote bytes, on every source and position.", "quantifier": "every source and position", "why_tests_cant": "refutation plus exact behaviour for all inputs", "anchors": ["generator/src/constructor.rs:terminal"]}
{"id": "C34", "title": "Range bounds denote the written characters only for plain characters and hex", "statement": "['x'..'y'] and [0xHH..0xHH] emit exactly the bounds written; an escaped bound ('\\n') becomes 0x5C, the code of the backslash; an empty-terminal bound and an integer bound make the generator panic.", "quantifier": "every range expression", "why_tests_cant": "all bounds", "anchors": ["generator/src/constructor.rs:ordered_choice_match_range"]}
{"id": "C35", "title": "generate_parser rejects exactly the files it cannot read to the end", "statement": "generate_parser yields code or panics (never a syntax error) iff the file is a written grammar (possibly of no rules); on every other file it reports line 1 + number of newlines before the end of the longest prefix that is a written grammar.", "quantifier": "every grammar file content", "why_tests_cant": "all files", "anchors": ["generator/src/lib.rs:generate_parser", "generator/src/lib.rs:count_lines"]}
{"id": "C36", "title": "DSL lexical classes", "statement": "In the DSL, rule names are exactly one letter followed by letters or underscores, hex literals 0x followed by one or more of 0-9A-F, integers [1-9][0-9]*, string terminals at least two bytes without a double quote; each is matched greedily.", "quantifier": "every source and position", "why_tests_cant": "all inputs", "anchors": ["parser/src/parser.rs:var_name", "parser/src/parser.rs:hex", "parser/src/parser.rs:integer", "parser/src/parser.rs:stringterminal"]}
{"id": "C37", "title": "Comments: which ones break generation, and what is kept", "statement": "A comment makes the generator panic iff it is empty (##); otherwise the comment emitted with a rule is the text between the hashes of the last comment after the rule, with each line trimmed.", "quantifier": "every comment text", "why_tests_cant": "all texts, including multi-byte UTF-8", "anchors": ["generator/src/constructor.rs:comment", "parser/src/parser.rs:comment"]}
{"id": "C38", "title": "Round trip: a printed grammar is read back as itself", "statement": "Writing any grammar in DSL syntax, parsing it with the DSL parser and generating code from the tree gives code with the meaning of the original grammar.", "quantifier": "every grammar expressible in the DSL", "why_tests_cant": "end-to-end correctness over all grammars", "anchors": ["parser/src/parser.rs", "generator/src/constructor.rs", "generator/src/binary_wo.rs"]}
{"id": "C39", "title": "Hand-written files survive regeneration, at any crash point", "statement": "Running the program never modifies an existing hooked_calls.rs or user_state.rs of the target crate, whichever file operations fail, wherever the run is broken off, and however often it is run (with whatever grammars and options).", "quantifier": "every initial directory content, every directory iteration order, every crash point", "why_tests_cant": "all crash points", "anchors": ["runner/src/data.rs:generate_data", "runner/src/data.rs:copy_dir_contents_to_dir"]}
{"id": "C40", "title": "A grammar with a syntax error touches no file", "statement": "If the grammar file is not a written grammar, or the generator panics on it, no file is changed at any moment and generation ends in a panic; the only directories that may appear are the target directory and its parents.", "quantifier": "every grammar file, every directory state", "why_tests_cant": "all inputs", "anchors": ["runner/src/data.rs:generate_parser", "runner/src/data.rs:generate_data"]}
{"id": "C41", "title": "Hooked call example: every line accepted once", "statement": "Example 11's parser terminates and consumes exactly the longest prefix of the source made of lines of [a-z ]+ ending in a newline that are pairwise different; it fails iff there is not even one such line; its tree is the start rule with one leaf per consumed line.", "quantifier": "every UTF-8 source of at most 2^32-4 bytes", "why_tests_cant": "unbounded number and length of lines, history-dependent state", "anchors": ["examples/example_11_external_rule_call_parser/src/hooked_calls.rs", "examples/example_11_external_rule_call_parser/src/parser.rs"]}
{"id": "C42", "title": "Source accessors", "statement": "get_char(p) is the p-th byte or None past the end; get_string returns the slice when both ends are in range and on character boundaries and start <= end, None if an end is beyond the source, and panics otherwise; get_multiple_chars never returns a slice that touches the last byte.", "quantifier": "every source shorter than 2^32 bytes, every position", "why_tests_cant": "all positions", "anchors": ["parser/src/source.rs"]}
{"id": "C43", "title": "Sources of 4 GiB and more are truncated", "statement": "For a source of length n, Source behaves as if only the first n mod 2^32 bytes existed.", "quantifier": "every source", "why_tests_cant": "cannot build all such inputs in a test", "anchors": ["parser/src/source.rs:new"]}
{"id": "C44", "title": "The memo table is a last-write-wins map", "statement": "After any sequence of insertions, check(rule, pos) returns the last value inserted for (rule, pos), or None; recorded heads keep their involved set, and the eval set is the involved set minus the rules removed since it was last reinitialised.", "quantifier": "every sequence of cache operations", "why_tests_cant": "all operation sequences", "anchors": ["parser/src/cache.rs"]}
{"id": "C45", "title": "Tree editing operations", "statement": "connect appends, connect_front prepends, connect_if_not_connected is idempotent and never introduces a duplicate, disconnect removes exactly the last connection to the child (so it undoes a preceding connect), and each touches only the given parent's child list.", "quantifier": "every tree, parent and child", "why_tests_cant": "all trees and operation sequences", "anchors": ["parser/src/publisher.rs:connect", "parser/src/publisher.rs:connect_front", "parser/src/publisher.rs:connect_if_not_connected", "parser/src/publisher.rs:disconnect"]}
{"id": "C46", "title": "print(key, Some(true)) prints the successful subtree in order", "statement": "Printing with Some(true) emits exactly one line per node reachable from the key through successful nodes only, in pre-order with depth as indentation, never the Key(0) error line; Some(false) likewise for failed nodes, None for all.", "quantifier": "every tree produced by a parse", "why_tests_cant": "all trees", "anchors": ["parser/src/publisher.rs:print_kernel_true", "parser/src/publisher.rs:print_kernel_false", "parser/src/publisher.rs:print_kernel_all"]}
{"id": "C47", "title": "Example 5: left-recursive subtraction", "statement": "Example 5's parser, on every source, accepts exactly a digit followed by the longest run of '-' digit pairs, and its tree nests to the left.", "quantifier": "every source", "why_tests_cant": "unbounded inputs", "anchors": ["examples/example_5_lr_num_parser/src/parser.rs"]}
{"id": "C48", "title": "Right and left recursion agree (example 10)", "statement": "On every source, rr and lr of example 10 both accept iff the source starts with '1', and both stop after the longest run of '1's.", "quantifier": "every source", "why_tests_cant": "unbounded inputs", "anchors": ["examples/example_10_basic_bench_parser/src/parser.rs"]}
{"id": "C49", "title": "parse reports success, end and tree consistently", "statement": "parse(source) with (b, q, tree): if b is false then q = 0 and the tree is just the root; if b is true and q > 0 the root has exactly one child, the start rule's node, spanning 0..q.", "quantifier": "every grammar whose start rule is referenced without left recursion, every source", "why_tests_cant": "all inputs", "anchors": ["parser/src/parse.rs:parse"]}
{"id": "C50", "title": "Growing a seed terminates", "statement": "The left-recursion growth loop performs at most (source length - position) + 1 evaluations of the rule body, because each retained result ends strictly later.", "quantifier": "every rule, body behaviour, source, position", "why_tests_cant": "all body behaviours", "anchors": ["parser/src/var_name.rs:_var_name_kernel_growth_function"]}
{"id": "C51", "title": "A left-recursive rule never matches the empty string", "statement": "A call of a left-recursive rule made while no left recursion is being grown either fails or consumes at least one byte, whatever its body is; so a left-recursive rule with an alternative that can match empty fails where that alternative alone would succeed.", "quantifier": "every parser, source, idle state, position, involved set and rule", "why_tests_cant": "ranges over all bodies and states", "anchors": ["parser/src/var_name.rs:_var_name_kernel_growth_function"]}
{"id": "C52", "title": "The returned tree can be exponentially larger than the memo table", "statement": "clear_false copies a memoised node once per reference to it, including references from abandoned alternatives, so the tree returned by parse can have at least 2^n nodes for a grammar and source of size linear in n although recognition creates only linearly many nodes; for n large enough parse cannot return at all.", "quantifier": "for every n (lower bound), with recognition cost bounded by C09", "why_tests_cant": "asymptotic lower bound", "anchors": ["parser/src/publisher.rs:clear_false", "parser/src/var_name.rs:memoized_behaviour"]}
{"id": "C53", "title": "When the generator panics", "statement": "On a written grammar the generator panics iff a leftmost reference is undeclared, a range bound is empty or decimal, a hexadecimal literal is out of range, a string terminal is a decimal literal, or a comment is empty; otherwise it returns code.", "quantifier": "every written grammar below 82 million bytes, every hash iteration order", "why_tests_cant": "the panics sit in many conversion functions; only a proof covers all grammars and orders", "anchors": ["generator/src/lib.rs: generate_parser", "generator/src/binary_wo.rs", "generator/src/constructor.rs"]}
{"id": "C54", "title": "From grammar file to parser: the generated parser implements the written grammar", "statement": "For every grammar file that is well formed, closed (references declared, names distinct up to case) and whose leaves are translated faithfully: the generated functions link (distinct, calling only each other); without hooks and detected left recursion the linked parser returns exactly the PEG result of the grammar as written; and with left recursion whatever it accepts is derivable from the grammar as written.", "quantifier": "every such grammar file, every hash order, every source, rule and start position", "why_tests_cant": "end-to-end compiler correctness over all grammars and inputs", "anchors": ["generator/src/lib.rs: generate_parser", "parser/src/parser_core.rs", "parser/src/var_name.rs"]}
{"id": "C55", "title": "What a run leaves behind", "statement": "A run in which no file operation fails, with crate and core apart, reports success and leaves: the generated rules.rs and parser.rs, main.rs made of the import line and the sample, no sample_main.txt, the core's copy of every other core file except existing hand-written ones, and everything outside the crate as it was; so regenerating is deterministic in grammar, name and core.", "quantifier": "every disk, configuration, grammar, directory listing order", "why_tests_cant": "all disks and listing orders", "anchors": ["runner/src/data.rs:generate_data", "runner/src/data.rs:copy_dir_contents_to_dir", "generator/src/constructor.rs:parser_file_content"]}
{"id": "C56", "title": "Silent damage: self-generation, ignored write errors, broken-off first runs", "statement": "Generating the core onto itself empties every core file that is neither hand-written nor generated while reporting success; failures to copy or write are not reported, so success may be printed although no file changed; and a run broken off between creating and filling hooked_calls.rs or user_state.rs leaves it empty and no later run fills it.", "quantifier": "every disk and configuration meeting the stated shape; all later histories", "why_tests_cant": "all failure points and all later runs", "anchors": ["runner/src/data.rs:generate_data", "runner/src/data.rs:copy_dir_contents_to_dir"]}
{"id": "C57", "title": "Imported hooked calls", "statement": "The generated parser.rs imports exactly the hooked calls written in the grammar, in writing order, once per use; a hooked call used in two places is imported twice (which Rust rejects).", "quantifier": "every written grammar below 82 million bytes", "why_tests_cant": "all grammars", "anchors": ["generator/src/constructor.rs:GeneratedCode::new", "generator/src/constructor.rs:parser_file_content"]}
{"id": "C58", "title": "Left-recursive rules build left-nested trees", "statement": "In a grammar whose left recursion is direct (A = (A, b) / a), the tree returned by parse for a match of A is the tree of a wrapped once for each match of b, the tree so far always being the first child, with failed and empty nodes removed; when the start rule is just a reference to a left-recursive rule there is no exception to this.", "quantifier": "every such grammar, every source, every successful or failing parse", "why_tests_cant": "all grammars and inputs, unbounded nesting", "anchors": ["parser/src/var_name.rs:_var_name_indirect_left_recursion", "parser/src/publisher.rs:clear_false"]}
{"id": "C59", "title": "Example 6: precedence and associativity", "statement": "Example 6's parser returns, on every source, a tree in which products and quotients are below sums and differences and both group to the left; on failure the tree is just the root.", "quantifier": "every source", "why_tests_cant": "unbounded inputs", "anchors": ["examples/example_6_term_and_fact_parser/src/parser.rs"]}
{"id": "C60", "title": "Asking for a left-recursive rule again", "statement": "Calling a directly left-recursive rule again at the same position gives the same answer whatever happened in between; but outside any growth it is grown again rather than looked up, and the second tree is wrong: it contains a node whose child covers more input than the node itself.", "quantifier": "every directly left-recursive grammar, source, pair of reachable states (answer); a witness grammar and source (tree)", "why_tests_cant": "all histories of calls", "anchors": ["parser/src/var_name.rs:should_go_into_growth_function", "parser/src/var_name.rs:_var_name_kernel_growth_function"]}
{"id": "C61", "title": "Trees linear in the text", "statement": "The tree returned by the DSL parser has at most 2 + 3q nodes, where q is where the parse ended; more generally every non-left-recursive grammar that passes a decidable rule-by-rule check has trees of a size linear in the text read, and, if it is also well formed, a parse that returns on every source that leaves room for the memo table and that tree (contrast C52, where trees are exponential).", "quantifier": "every grammar passing the check and every source; every source for the DSL parser", "why_tests_cant": "a size bound over all sources, including those that make alternatives fail after publishing many nodes", "anchors": ["parser/src/parser.rs", "parser/src/publisher.rs:clear_false", "parser/src/parse.rs:parse"]}
{"id": "C62", "title": "Indirect left recursion is iteration, with left-nested trees", "statement": "If all left recursion is in groups A = X / Y / a, X = A, b, Y = A, c (any number and length of member chains, members shared by nothing else), and the start rule enters the recursion once, then parse accepts and consumes exactly what the grammar A = a (b / c)* does, on every source, and the returned tree is the tree of a wrapped once for every further match, each wrapping through the node of the member that matched.", "quantifier": "every grammar of that shape (certificate checked by the kernel), every source", "why_tests_cant": "the growth algorithm shares memo table, eval sets and heads between all rules and positions; agreement with iteration is about every interleaving of growths on every source", "anchors": ["parser/src/var_name.rs:_var_name_kernel_indirect_left_recursion", "parser/src/var_name.rs:_var_name_kernel_growth_function", "parser/src/cache.rs", "parser/src/context.rs"]}
{"id": "C63", "title": "Examples 7, 8 and 9: language and trees", "statement": "The parsers of examples 7, 8 and 9 (left recursion through one, two and four intermediate rules) succeed exactly on sources starting with a digit, consume that digit and the longest run of minus-digit pairs after it, and return the left-nested tree with every intermediate rule's node at every level.", "quantifier": "every source", "why_tests_cant": "every source and unbounded nesting", "anchors": ["examples/example_7_indirect_lr_num_parser/src/parser.rs", "examples/example_8_indirect_lr_3_level_parser/src/parser.rs", "examples/example_9_indirect_lr_5_level_parser/src/parser.rs", "parser/src/var_name.rs"]}
{"id": "C64", "title": "Example 1 is a calculator for sums", "statement": "On every text of fewer than 2^32 bytes, example 1's parser accepts iff the text starts with a sum (positive integers without leading zeros, joined by + and -), consumes the longest such sum and returns its left-nested tree; evaluating that tree gives the value of exactly that sum, from left to right in 64-bit arithmetic (debug builds panic on overflow, release builds wrap), the exact value when all partial sums fit; a rejected text evaluates to 0. A text is the text of at most one sum.", "quantifier": "every text, every sum of any length, both build modes", "why_tests_cant": "sums of every length and every malformed continuation; the evaluator walks trees produced by left-recursion growth", "anchors": ["examples/example_1/src/lib.rs:evaluate_tree", "examples/example_1/src/lib.rs:evaluate_tree_kernel", "examples/example_1_parser/src/parser.rs", "parser/src/var_name.rs"]}
{"id": "C65", "title": "Example 3 is a calculator for integer arithmetic", "statement": "On every text of fewer than 2^32 bytes, example 3's parser accepts iff the text starts with an arithmetic expression (numbers, parentheses, * and / binding tighter than + and -), consumes the longest such expression and returns its tree, operators of one level grouped to the left. Evaluating the tree gives the value of exactly that expression in 64-bit arithmetic: division truncates; division by zero, fractions and exponents panic; overflow panics in debug builds and wraps in release builds. When all intermediate results fit the value is exact, and debug builds never return a wrong value. Evaluating a rejected text panics. A text is the text of at most one expression.", "quantifier": "every text, every expression of any size and nesting depth, both build modes", "why_tests_cant": "expressions of every size, nesting and operator mix, and every malformed continuation; two nested left-recursive groups share one memo table", "anchors": ["examples/example_3_basic_maths/src/lib.rs:evaluate_tree", "examples/example_3_basic_maths/src/lib.rs:evaluate_tree_kernel", "examples/example_3_basic_maths/src/lib.rs:evaluate_binary_node", "examples/example_3_basic_maths/src/lib.rs:evaluate_number", "examples/example_3_basic_maths_parser/src/parser.rs", "parser/src/var_name.rs"]}
{"id": "C66", "title": "Example 4 is a calculator for integer arithmetic with powers", "statement": "As C65 for example 4, which adds powers: ^ binds tighter than * and /, and groups to the right. The exponent is taken modulo 2^32. When all intermediate results fit in 64 bits and all exponents in 32 unsigned bits the value is exact; under the second condition debug builds never return a wrong value (without it they can: 2^4294967296 evaluates to 1).", "quantifier": "every text, every expression of any size and nesting depth, both build modes", "why_tests_cant": "expressions of every size, nesting and operator mix, and every malformed continuation; two nested left-recursive groups share one memo table", "anchors": ["examples/example_4_full_maths/src/lib.rs:evaluate_tree", "examples/example_4_full_maths/src/lib.rs:evaluate_tree_kernel", "examples/example_4_full_maths/src/lib.rs:evaluate_binary_node", "examples/example_4_full_maths/src/lib.rs:evaluate_number", "examples/example_4_full_maths_parser/src/parser.rs", "parser/src/var_name.rs"]}
{"id": "C67", "title": "Borrows of the shared cells never conflict", "statement": "The context and the user state of a parse are RefCells shared by all rule functions. As long as a hook holds no borrow while it calls its closure, or when it returns, no borrow or borrow_mut of a parse ever finds a conflicting borrow alive: no parse ends in a BorrowError or BorrowMutError panic, and every rule function leaves both cells free. Conversely a rule reference reached while any borrow of the context is alive always panics. Example 11's hook keeps the discipline.", "quantifier": "every grammar, source, memo table and tree, every hook that keeps the discipline (negative part: every state with a live borrow)", "why_tests_cant": "borrow conflicts depend on the run-time nesting of rule calls, memo hits, growth rounds and hooks; a test exercises one nesting", "anchors": ["parser/src/var_name.rs", "parser/src/parse.rs:parse", "examples/example_11_external_rule_call_parser/src/hooked_calls.rs:unique_line_cache"]}
{"id": "C68", "title": "Checked-in parsers regenerate from their grammar files", "statement": "Running generate_parser on parser/Grammar.dsl, and on the grammar file of each of the eleven examples, yields, whatever the iteration order of the hash containers, one and the same code; its functions are, in order, the functions of the checked-in parser.rs with the same bodies (the same combinators applied to the same arguments, the same involved sets), and its enum is the enum of the checked-in rules.rs. In particular the parser of grammar files regenerates itself.", "quantifier": "every iteration order of the hash containers, at every one of the twelve grammar files of the repository", "why_tests_cant": "the generator iterates over HashMaps and HashSets with random state; a run shows one order, and the runner's self-generation overwrites what it would be compared with", "anchors": ["parser/Grammar.dsl", "parser/src/parser.rs", "parser/src/rules.rs", "examples", "generator/src/binary_wo.rs", "generator/src/constructor.rs"]}
{"id": "C69", "title": "The JSON example: what compiles and what it accepts", "statement": "For every iteration order of the hash containers generate_parser turns examples/json_parser/json.dsl into one and the same code, whose function for the rule wsc does not compile (its string literal is a bare carriage return); without that rule, which nothing refers to, the code is the parser of the remaining rules. On every text below 138 million bytes that parser returns, and it succeeds with the whole text consumed exactly if the text is JSON as in examples/json_parser/spec.txt with strings restricted to bytes other than quote and backslash; so no text with an escape sequence is ever accepted. The tree has at most 4 + 2q nodes, q being where the parse ended.", "quantifier": "every text below 138 million bytes, every iteration order", "why_tests_cant": "a test parses a few documents; the claim is an equivalence over all texts with unbounded nesting, and about the compilability of generated code for every hash order", "anchors": ["examples/json_parser/json.dsl", "examples/json_parser/spec.txt", "generator/src/binary_wo.rs", "parser/src/parser_core.rs"]}
{"id": "C70", "title": "How deeply the calls of a parser nest", "statement": "Bounding the nesting of calls and the number of iterations of loops separately changes no answer of parse. For a well-formed grammar without left-recursive references and hooked calls, calls nest at most (len+1) * rules * H deep, H bounding the nesting of combinators within one rule, and loops iterate at most len+1 times; within these limits parse returns. For every grammar calls nest at least as deep as the returned tree is high; so the JSON parser accepts n nested pairs of brackets but needs more than n nested calls to do so: the stack needed grows linearly with the nesting of the text, and no fixed stack suffices for all JSON texts.", "quantifier": "every grammar of the class, every text, every pair of limits; every nesting n", "why_tests_cant": "a test observes one stack on a few texts; the claims bound the depth for all texts and all grammars of a class", "anchors": ["parser/src/parser_core.rs", "parser/src/var_name.rs", "parser/src/parse.rs::parse", "parser/src/publisher.rs::clear_false_kernel"]}
{"id": "C71", "title": "The returned tree is stored in pre-order", "statement": "Whatever the grammar, the tree returned by parse is stored as follows: key 0 is the root (the grammar rule, 0..0), key 1 an unconnected copy of it, and the rule invocations below the root have the keys 2, 3, ... in pre-order, each node listing the keys of its children in order. So the whole store is a function of the tree: two parses with the same tree return equal stores, and for grammars without left recursion the store is a function of the grammar and the text. print(Key(0), Some(true)) lists the root and then keys 2, 3, ... with their depth.", "quantifier": "every grammar, every text, every successful parse", "why_tests_cant": "keys are handed out by a memoising, backtracking parser and a recursive copy; a test compares a few trees, the claim fixes every key of every tree", "anchors": ["parser/src/publisher.rs::clear_false", "parser/src/publisher.rs::print", "parser/src/parse.rs::parse"]}
{"id": "C72", "title": "What the generated command line program reports", "statement": "The main.rs of a generated crate exits with status 0 for every readable UTF-8 file, accepted or not, with 1 if the file cannot be read and with 2 if it is not UTF-8; it panics if the path does not exist. For a text file it prints the tree in pre-order, the pair returned by parse, and a message unless parse stopped at the length of the file modulo 2^32. For grammars without left recursion and files below 4 GiB the message is absent exactly if the text was accepted to its end or is empty; files whose length is a multiple of 4 GiB never get the message. The JSON program prints (true, len) and no message exactly for JSON files.", "quantifier": "every file, every grammar", "why_tests_cant": "there is no test of the program; the claims range over all files and all generated parsers, including file sizes no test uses", "anchors": ["parser/src/sample_main.txt", "parser/src/publisher.rs::print", "parser/src/parse.rs::parse"]}
{"id": "C73", "title": "Example 2: mutual left recursion, its language, tree and evaluator", "statement": "The parser of example 2 (A = B,'a' / 'a'; B = A,'b' / 'b'; the start rule is A) accepts a text if and only if it starts with 'a'. It then consumes the longest prefix of the form a, aba, ababa, ..., and its tree nests A and B alternately to the left, one level per letter, without leftovers of the growth rounds. Texts that start with 'b' are rejected, although B alone can start with 'b'. The evaluator of the example writes the tree out again as exactly the consumed prefix, and as the empty text for a rejected text. Nothing panics for texts below 2 GiB.", "quantifier": "every text below 2^31 bytes", "why_tests_cant": "the repository tests five texts; the claim is about the number of growth rounds, which is unbounded, and about every possible continuation after the prefix", "anchors": ["examples/example_2/src/lib.rs::evaluate_tree", "examples/example_2/src/lib.rs::evaluate_tree_kernel", "examples/example_2_parser/src/parser.rs", "parser/src/var_name.rs::_var_name_kernel_growth_function"]}
{"id": "C74", "title": "The generated files, as text, are Rust with the grammar's meaning, exactly for usable names", "statement": "The text the generator writes to parser.rs and rules.rs, read again as Rust source text (tokens, items, statements, name resolution), defines one function per rule, in order, named by the lower-cased rule name, and each function builds the closure the right-hand side of its rule denotes; a parser made of those functions computes PEG semantics of the grammar as written (no hooks, no left recursion). This holds if and only if the names are usable: function names pairwise different and no keywords; hooks pairwise different, different from functions, keywords and parameters; no rule that is referred to is named like a parameter of the generated functions; every reference is to an inlined rule or one with an enum variant; no left-recursive rule that a reference involves is inlined. For every other grammar with translatable leaves the generator still returns code, but the files do not compile. Text of a string terminal that ends in a backslash escapes from its byte string, so that the next string is read as code.", "quantifier": "every grammar below 82 MB whose leaves are translated faithfully, every hash order; every usable and every unusable choice of names", "why_tests_cant": "the repository compares and compiles the output of twelve grammars; the claim is about the text emitted for every grammar, including every name and every literal, and the converse is about every grammar whose output fails to compile", "anchors": ["generator/src/binary_wo.rs::to_string_kernel", "generator/src/constructor.rs::parser_file_content", "generator/src/constructor.rs::rules_enum_file_content", "parser/src/parser.rs"]}
{"id": "C75", "title": "The checked-in parsers are the parsers the theorems are about, and are up to date", "statement": "The checked-in parser.rs and rules.rs of the grammar-file parser and of the eleven example parsers, read as Rust source text byte for byte, define exactly the rules, in order, with exactly the bodies and the enum that the other properties speak about; and for every iteration order of the hash containers, the files the generator writes for the checked-in grammar file define the same enum and the same functions with the same closures (involved sets as sets) as the checked-in files.", "quantifier": "all twelve checked-in parsers (36 KB and 51 KB of Rust), every hash iteration order", "why_tests_cant": "tests compare one run's output with a file; they do not relate the file's text to the meaning of each function, nor cover every hash order", "anchors": ["parser/src/parser.rs", "parser/src/rules.rs", "examples/example_1_parser/src/parser.rs", "generator/src/constructor.rs::parser_file_content"]}
{"id": "C76", "title": "The source text of the parser crates, executed, computes what the model says", "statement": "Take the checked-in Rust files of a parser crate (core files, rules.rs and parser.rs; the grammar-file parser and examples 1 to 10) byte for byte, read them with a Rust reader and execute `parse` with a Rust interpreter: for every input, the execution returns exactly when the model returns, with the same flag, the same position and the same published tree; it panics exactly when the model panics; it runs forever exactly when the model does; and it never reaches a state in which the interpreter is stuck (an unbound name, a missing method, a wrong number of arguments).", "quantifier": "every input byte sequence, eleven crates, executions of any length", "why_tests_cant": "equality of the text's behaviour and the specification for every input, including non-terminating and panicking ones", "anchors": ["parser/src/parser_core.rs", "parser/src/var_name.rs", "parser/src/context.rs", "parser/src/cache.rs", "parser/src/publisher.rs", "parser/src/source.rs", "parser/src/parse.rs", "parser/src/parser.rs"]}
{"id": "C77", "title": "The crate generated from a grammar file, executed, does what the grammar says", "statement": "Run the generator on a well-formed grammar file (faithfully translated leaves, usable names, no hooked calls, a rule Grammar, no rule called like a core function), write rules.rs and parser.rs next to the core files, read the resulting Rust text and execute `parse`: the text is a program that is never stuck; without left recursion it returns (b, q) exactly when PEG semantics of the grammar as written gives (b, q), up to a panic when node keys run out; with left recursion every accepted prefix is derivable from the grammar; if every cycle of references before consumption is recognised as left recursive and no repeated expression matches the empty string, the execution ends on every input; and where the start rule needs itself unnoticed, it never returns.", "quantifier": "every grammar file in the stated class, every iteration order of the generator's hash containers, every input byte sequence, executions of any length", "why_tests_cant": "it ranges over all grammars and all inputs, and speaks about non-terminating executions", "anchors": ["generator/src/lib.rs", "generator/src/constructor.rs", "parser/src/parser_core.rs", "parser/src/var_name.rs", "parser/src/parse.rs", "runner/src/main.rs"]}
{"id": "C78", "title": "The source text of the hooked-call example, executed, accepts pairwise different lines", "statement": "Take the checked-in Rust files of example 11 byte for byte, among them its own user_state.rs (a HashSet of lines) and hooked_calls.rs (unique_line_cache), read them with a Rust reader and execute `parse`: for every input the execution returns, panics or runs forever exactly as the model does, with the same result, and is never stuck; and for every text below 4 GiB minus 4 bytes it ends and returns (b, q), where the first q bytes are the longest prefix of the text made of pairwise different lines and b says whether there is a line at all.", "quantifier": "every input byte sequence (respectively every text), executions of any length", "why_tests_cant": "the user state changes during the parse and every history of lines is possible; equality for all inputs, including panicking ones", "anchors": ["examples/example_11_external_rule_call_parser/src/hooked_calls.rs", "examples/example_11_external_rule_call_parser/src/user_state.rs", "examples/example_11_external_rule_call_parser/src/parser.rs", "parser/src/source.rs:get_string"]}
{"id": "C79", "title": "Generated crates with the hooked call of example 11, executed, do what the grammar file says", "statement": "For every grammar file (in the fragment of C77) whose hooked calls are all unique_line_cache: take the rules.rs and parser.rs the generator writes, the core files it copies, and example 11's user_state.rs and hooked_calls.rs, read them with a Rust reader and execute `parse`. The text is a program; its execution returns, panics or runs forever exactly as the model of the linked rules does (set of lines included); whatever it accepts is derivable from the grammar as written; if no left recursion escapes detection and no repeated expression may match nothing, it ends on every input. For example 11's own grammar file, for every order of the hash containers, the crate accepts the longest prefix made of pairwise different lines.", "quantifier": "every grammar file in the fragment, every order of hash containers, every input, executions of any length", "why_tests_cant": "ranges over all grammars with hooked calls, all inputs and all histories of the user state", "anchors": ["examples/example_11_external_rule_call/example_11_external_rule_call.dsl", "examples/example_11_external_rule_call_parser/src/hooked_calls.rs", "parser/src/user_state.rs", "parser/src/var_name.rs", "generator/src (hooked calls in the generated parser.rs, hook imports)"]}
{"id": "C80", "title": "The returned tree follows the grammar rule by rule, and clearing it again changes nothing", "statement": "Whatever the grammar (left recursion and hooked calls included), in a tree returned by parse every node below the root is of a rule that the body of its parent's rule refers to by name, directly or through inlined rules, and the children of the root are invocations of the start rule; so a rule that is only ever inlined (or never used) has no node in the returned store. Calling clear_false on the returned tree again gives the same store, key by key.", "quantifier": "every parser, every source, every hook that behaves as C41 assumes, every returned tree", "why_tests_cant": "ranges over all grammars and inputs; left-recursive growth reuses and drops nodes in ways a test on one grammar does not exhibit", "anchors": ["parser/src/publisher.rs: clear_false, clear_false_kernel", "parser/src/parser_core.rs: _var_name_kernel, _var_name_indirect_left_recursion_kernel", "generate_parser inlined rules"]}
{"id": "C81", "title": "The calculators' source code, executed, calculates", "statement": "Executing the source text of examples 1 to 4 (lib.rs with the parser crate it uses): parse the text, then evaluate_tree on the returned tree. For every text the program returns, panics or runs on exactly as the model of the evaluator does. So: for every sum (example 1) and every arithmetic expression (examples 3 and 4) the program returns its value in checked 64-bit arithmetic, or panics if that overflows, divides by zero or meets an unsupported number; for every UTF-8 text, if the program of example 1 or 3 returns a number at all, it is exactly the value of the longest sum or expression at the front of the text (example 1 returns 0 if there is none); example 2 always returns the matched word.", "quantifier": "every text (UTF-8 for the exactness part), every expression, every bound on steps", "why_tests_cant": "the tests of the examples check a few dozen expressions; overflow, nesting and rejected texts are unbounded", "anchors": ["examples/example_1/src/lib.rs: evaluate_tree, evaluate_tree_kernel", "examples/example_2/src/lib.rs: evaluate_tree, evaluate_tree_kernel", "examples/example_3_basic_maths/src/lib.rs: evaluate_tree, evaluate_tree_kernel, evaluate_binary_node, evaluate_number", "examples/example_4_full_maths/src/lib.rs", "examples/example_*_parser/src"]}
{"id": "C82", "title": "Regenerating a parser changes nothing it does", "statement": "Running the generator on a grammar file that ships with the repository (the DSL's own grammar, examples 1 to 11) makes, whatever the iteration order of its hash containers, a crate that is a program and cannot be told apart from the checked-in crate: on every input both return the same value (truth value, position and tree) for some number of steps, or both panic, or neither ends. More generally, rule names and the order or repetition of the rules listed in the involved sets of left-recursive rules are invisible in the result: parsers that differ only in these return the same truth value, position and tree up to names.", "quantifier": "every shipped grammar file, every hash iteration order, every input, every bound on steps; in general form every parser and every pairing of rule names", "why_tests_cant": "tests compare a few regenerated files byte by byte or run a few inputs; that hash-set order, set repetition and names never show needs a simulation over all inputs and growth histories", "anchors": ["generator/src/binary_wo.rs", "generator/src/symbol_table.rs", "generator/src/cycle_detector.rs", "parser/src/var_name.rs: _var_name, _var_name_indirect_left_recursion", "parser/src/cache.rs", "examples/*/src/parser.rs", "examples/*/src/rules.rs"]}
{"id": "C83", "title": "How a grammar file is written does not matter", "statement": "Two grammar files that contain the same rules, but differ in white space, in comments, in the order of the rules and in a consistent renaming of the rules (the start rule stays grammar), make parsers that give the same truth value, position and, up to the names, the same tree on every input, or panic in the same way. Without renaming the two generated crates, executed, return equal values, variants included. Moreover if one of two files written without renaming can be used (code is generated from it, its crate compiles and runs), so can the other, provided each of its rules is written once and none of its comments is empty. The same holds for crates with example 11's hooked call and its set of lines.", "quantifier": "every pair of such grammar files whose references are declared (of bounded length), every hash iteration order at each generation, every input, every bound on steps; left-recursive and inlined rules included", "why_tests_cant": "layout, order and names range over infinitely many files; involved sets and inlining are computed by a graph search that visits the rules in file and hash order", "anchors": ["generator/src/symbol_table.rs", "generator/src/cycle_detector.rs", "generator/src/binary_wo.rs", "parser/src/parser.rs: generated DSL parser", "parser/src/var_name.rs"]}
{"id": "C84", "title": "The generator's printer, as written in the repository, prints the code of the model", "statement": "The Rust source text of the generator's expression printer (generator/src/binary_wo.rs), executed by the semantics of Rust on any expression tree, returns exactly the lines of code the model prints for that tree, and panics exactly when the model does.", "quantifier": "every expression tree (with ASCII names), every entry point in it, every iteration order of hash containers, every sufficiently large bound on call depth", "why_tests_cant": "There are infinitely many expression trees; tests print a handful.", "anchors": ["generator/src/binary_wo.rs: BinaryTreeWO::to_string, match_ref and the functions it calls"]}
{"id": "C85", "title": "The generator's symbol table, as written in the repository, is the symbol table of the model", "statement": "The Rust source text of generator/src/symbol_table.rs, executed by the semantics of Rust: SymbolTable::new on any syntax tree and source text returns the sorted list of declared names without duplicates and the set of rules marked INLINE that the model computes, and panics exactly when the model does.", "quantifier": "every syntax tree with positions below 2^32 - 2, every ASCII source text, every iteration order of hash containers, every sufficiently large bound on call depth and loop rounds", "why_tests_cant": "There are infinitely many grammar files and trees; tests build a handful of symbol tables.", "anchors": ["generator/src/symbol_table.rs: SymbolTable::new, create_symbol_table_from_tree, create_symbol_table_from_tree_kernel, check_semantic_instructions, run_duplication_check"]}
{"id": "C86", "title": "The generator's constructor, as written in the repository, writes the files of the model", "statement": "The Rust source text of generator/src/constructor.rs (with binary_wo.rs, symbol_table.rs and cycle_detector.rs), executed by the semantics of Rust: GeneratedCode::new on any syntax tree, source text, symbol table and involved sets panics exactly when the model does; otherwise parser_file_content and rules_enum_file_content of its result are, byte by byte, the parser.rs and rules.rs of the model. Each expression function (rhs, ordered_choice, sequence, atom, nucleus, \u2026) returns the key and leaves the output tree and the hook list of the model.", "quantifier": "every syntax tree with positions below 2^32 - 2, every ASCII source text without string terminals above character 127, every symbol table of ASCII names, every map of involved sets, every iteration order of hash containers, every sufficiently large bound on call depth and loop rounds", "why_tests_cant": "There are infinitely many grammar files and trees; tests compare the output for a handful of grammars, if at all.", "anchors": ["generator/src/constructor.rs: GeneratedCode::new, generate, generate_rules_enum, match_rule, rule, lhs, comment, rhs, ordered_choice, sequence, atom, nucleus, hooked_call, string_terminal, ordered_choice_match_range, var_name, terminal, parser_file_content, rules_enum_file_content"]}
{"id": "C87", "title": "The detector of left recursion, as written in the repository, finds the sets of the model", "statement": "The Rust source text of generator/src/cycle_detector.rs, executed by the semantics of Rust: LeftRecursionDetector::new on any syntax tree and source text panics exactly when the model does; otherwise it returns a detector whose get_left_recursion_rules is exactly the map of involved sets of the model (and which is a legal first argument of GeneratedCode::new in the sense of C86).", "quantifier": "every syntax tree of less than 2^32 nodes, every ASCII source text, every iteration order of hash containers, every sufficiently large bound on call depth and loop rounds", "why_tests_cant": "There are infinitely many trees, and the order of iteration of HashMap and HashSet changes with every run; a test sees one order for a handful of grammars.", "anchors": ["generator/src/cycle_detector.rs: LeftRecursionDetector::new, get_left_recursion_rules, RuleCallTree::new, walk_node_children, get_rules_referenced_by_rule, loop_over_referenced_rules, repeated_loop_over_referenced_rules, get_left_most_called_rules_of_rule, get_left_most_called_rules_of_all_rules, cleanup_left_most_called_rules, create_involved_sets, merge_dependent_sets, merge_dependent_sets_loop_until_no_change, involved_rule_count"]}
{"id": "C88", "title": "The generator, as written in the repository, run on a grammar file, writes the files of the model", "statement": "The Rust source text of the generator crate, executed by the semantics of Rust on the cleared syntax tree of a grammar file in the order in which generate_parser calls it (SymbolTable::new, LeftRecursionDetector::new, GeneratedCode::new, then rules_enum_file_content and parser_file_content): if the model makes two files, so does the execution, byte by byte the same for every iteration order of the hash containers; it panics exactly on the grammars with an undeclared leftmost reference, an unusable leaf or an empty comment. Executed on the grammar files of the repository it makes parsers that, read as Rust, are the checked-in ones (for Grammar.dsl: the generator makes the parser that it itself uses).", "quantifier": "every well-formed grammar text (ASCII, below 82 million bytes, without self-standing hexadecimal literals of 0x80 and above), every iteration order of hash containers, every sufficiently large bound on call depth and loop rounds", "why_tests_cant": "There are infinitely many grammars and hash orders; the tests of the generator print the output for three grammars and look at none of it.", "anchors": ["generator/src/lib.rs: generate_parser", "generator/src/constructor.rs: GeneratedCode::new, parser_file_content, rules_enum_file_content", "generator/src/symbol_table.rs: SymbolTable::new", "generator/src/cycle_detector.rs: LeftRecursionDetector::new", "parser/Grammar.dsl", "examples/*/*.dsl"]}
{"id": "C89", "title": "generate_parser, as written in the repository, run on any file, does what the model does", "statement": "generate_parser executed from the contents of the file to the two files: the text of the parser crate (Source::new, BasicContext::new, UserState::new, grammar(.., Key(0), .., 0), get_publisher, clear_false) and then the text of the generator crate (count_lines, or SymbolTable::new, LeftRecursionDetector::new, GeneratedCode::new and the two file contents). It rejects a text, with the line number of the model, exactly if the text is no grammar of the DSL; it panics exactly if it is one with an undeclared leftmost reference, an unusable leaf or an empty comment; otherwise it makes the two files of the model, byte by byte, whatever the iteration order of hash containers.", "quantifier": "every ASCII file below 82 million bytes (that is not a grammar with a self-standing hexadecimal literal of 0x80 and above, e.g. every one in which 0x does not occur), every iteration order of hash containers, every sufficiently large bound on call depth and loop rounds", "why_tests_cant": "There are infinitely many files, and every run has another hash order; the tests of the generator run three accepted grammars and check nothing about the output, the line number or rejection.", "anchors": ["generator/src/lib.rs: generate_parser, count_lines", "parser/src/parser.rs: grammar", "parser/src/publisher.rs: clear_false", "parser/src/context.rs: BasicContext", "generator/src/constructor.rs: GeneratedCode::new"]}
{"id": "C90", "title": "From the text of a grammar to a running parser: the generator as written in the repository, run, makes a parser that, run, does what the grammar says; and it bootstraps", "statement": "Run generate_parser (its source text and that of the parser crate) on the text of a grammar; put the two files it makes into a crate with the core files and the user's files; run that crate's parse (its source text). Then: the made program is the same whatever the hash iteration order; for a grammar without left recursion parse returns exactly what PEG semantics gives for the grammar as written; with or without left recursion it accepts only derivable text; it ends on every input if no hidden recursion and no empty loop is written. Replacing the generator's own parser crate by the one the generator makes of the grammar of grammar files, any number of times, changes nothing: every generation rejects, panics and makes the same files, and from the first remade one on the parser crate is the same program. The made programs of the repository's grammar files cannot be told apart from the checked-in parsers.", "quantifier": "every well-formed ASCII grammar below 82 million bytes that is compiled faithfully and whose names can be used, every input of the made parser, every generation of the generator, every iteration order of hash containers, every sufficient bound on call depth and loop rounds", "why_tests_cant": "It ranges over all grammars and all inputs of the parser made of each, and over all bootstrapping stages; the repository's tests regenerate a few examples and compare nothing.", "anchors": ["generator/src/lib.rs: generate_parser", "runner/src/main.rs", "parser/Grammar.dsl", "parser/src/lib.rs: parse", "parser/src/parser.rs: grammar", "examples/*/src/parser.rs"]}
{"id": "C91", "title": "The macro that makes tests of grammar files: one test per file, no test lost or merged, green exactly for grammars", "statement": "test_grammar_files_in_dir makes, for a directory of files with ASCII names, one test per entry, in order, that reads that entry. It panics (the crate does not compile) exactly if some stem (the file name up to its last dot) has a character that is no letter, digit, _ or -, as in a.old.dsl or .gitignore; two tests get the same name (it does not compile either) exactly if the stems differ at most in letter case and - for _. A test passes exactly if the file can be read and is a grammar of the DSL with at least one rule; so no file with a passing test is rejected by the generator, while the empty file is accepted by the generator and its test fails.", "quantifier": "every directory listing, every file content below 82 million bytes, every hash order and recursion depth", "why_tests_cant": "The macro makes the tests; nothing in the repository tests the macro, and the claim is about all directory listings and all file contents.", "anchors": ["test-grammar-proc-macro/src/lib.rs: test_grammar_files_in_dir", "parser/src/parser.rs: grammar", "generator/src/lib.rs: generate_parser"]}
{"id": "C92", "title": "The calculators, from the texts of their grammar files and of their evaluators to numbers", "statement": "Run the generator (its source text) on the grammar file of example 1, 2, 3 or 4, put the two files it makes into a crate with the core files, the user's files and the example's own lib.rs, and call the evaluator of that crate (its source text). On the text of an expression it returns the value of the expression in checked 64-bit arithmetic, and panics exactly if that arithmetic overflows, divides by zero (or, for lack of node keys, the parse does); whatever number it returns for any text is the value of the longest expression at the front of the text. The program is the same whatever generation of the generator made it and whatever the hash iteration order.", "quantifier": "every UTF-8 input text below 2^32 bytes, every expression, every generation of the generator, every iteration order of hash containers, every sufficient bound on call depth", "why_tests_cant": "The inputs, expressions and bootstrapping stages are unbounded; the example tests evaluate a handful of literals with the checked-in parser and never with one that was just generated.", "anchors": ["examples/example_1/src/lib.rs", "examples/example_2/src/lib.rs", "examples/example_3_basic_maths/src/lib.rs", "examples/example_4_full_maths/src/lib.rs", "examples/*/example_*.dsl", "generator/src/lib.rs: generate_parser"]}
{"id": "C93", "title": "What the command line program leaves on disk is the program, and update_parsers.sh changes no behaviour", "statement": "If a run of the command line program ends with success and no system call fails, the crate directory holds the core files, the user's two files (the crate's own if it has them, otherwise the core's) and the two generated ones; read as a crate, it is the program the generator's source text makes of the grammar file when executed, and for a grammar without left recursion its parse computes PEG semantics of the grammar as written. Running all lines of update_parsers.sh on the repository can be completed, changes only files below the eleven example crates, keeps their hand-written files, and after it each crate is a program that behaves as the checked-in one on every input: same results, same panics.", "quantifier": "every disk on which the repository is, every root directory, every order in which directories are listed and hash containers are iterated, every grammar file and configuration, every input of the crates' parsers", "why_tests_cant": "Nothing in the repository runs the script in a test; equality of behaviour before and after ranges over all inputs, and what is on the disk around the repository is arbitrary.", "anchors": ["update_parsers.sh", "runner/src/main.rs: main, generate_data, copy_dir", "generator/src/lib.rs: generate_parser", "examples/*_parser/src"]}
{"id": "C94", "title": "Every rule is an entry point, and expressions may be written by hand", "statement": "Instead of parse, call the functions of the core yourself, as all tests of the repository do: make a Source, a fresh BasicContext and UserState, build a closure by nesting _terminal, _sequence, _ordered_choice, _zero_or_more, ..., _var_name(&user_state, Rules::R, &context, r), _var_name_indirect_left_recursion(...) in any way, and call it with Key(0) at any position. In a crate generated from a grammar without left recursion the source text so executed returns exactly what PEG semantics gives for that expression, with the rules as written in the grammar file, and it ends where PEG semantics gives a result. With left recursion, also called by hand with any involved set, what is accepted is derivable from the expression, a failure is at the start position, and positions stay inside the text. In the repository's crates it does what the model's evaluator does, including the tree of nodes.", "quantifier": "every generated crate of a well-formed grammar whose names can be used, every expression over its rules, every text, every position, every sufficient bound on call depth", "why_tests_cant": "Expressions, texts and positions are unbounded; the tests call a few rules at position 0 of a few literals.", "anchors": ["parser/src/parser_core.rs", "parser/src/var_name.rs: _var_name, _var_name_indirect_left_recursion", "parser/src/context.rs: BasicContext::new, get_publisher", "parser/tests/tests_parser_basic.rs", "examples/example_10_basic_bench/src/lib.rs: tests"]}
{"id": "C95", "title": "A context may be used for many calls: what was called before never changes an answer", "statement": "On one Source, BasicContext and UserState make any number of calls, one after another, of any expressions built from the functions of the core, each with Key(0) at any position. In a crate generated from a grammar without left recursion, each answer is exactly what PEG semantics gives for that call's own expression and position with the rules as written, whatever calls came before it and left in the memo table and the tree; and the session ends where PEG semantics gives every call an answer. In every generated crate in which no cycle of references escapes the detection of left recursion and nothing repeated may match the empty string, every session ends. With left recursion, also called by hand, whatever came before, what each call accepts is derivable from its expression, a failed call ends where it began and positions stay inside the text. Also with example 11's hooked call, whose user state outlives the calls. In the repository's crates sessions do what the model's evaluator does, call after call, including the tree of nodes; those of examples 5 and 6 (direct left recursion) answer as their iterative reading does, and those of example 10's two rules find the longest run of '1's at their positions.", "quantifier": "every generated crate of a well-formed grammar whose names can be used, every text, every finite sequence of calls (expression and position), every sufficient bound on call depth", "why_tests_cant": "Histories of calls are unbounded and a stale memo entry shows only after a particular history; the tests make one call per context.", "anchors": ["parser/src/parser_core.rs", "parser/src/var_name.rs: _var_name, _var_name_indirect_left_recursion", "parser/src/cache.rs: BasicCache", "parser/src/context.rs: BasicContext", "examples/example_10_basic_bench/src/lib.rs: tests"]}
{"id": "C96", "title": "How deeply the calls of a left-recursive or hooked parser nest", "statement": "In every well-formed grammar, left-recursive rules and hooked calls (whose hooks fail in place or report positions seen) included, a call of any closure at any position of the text and from any state a client can reach nests calls at most as deep as its own combinators plus a bound linear in the length of the text: ((len+1)*(n*(n+1)+1)+n+2)*n*H for n rules with combinators nested at most H deep; no loop iterates more than len+1 times; and within these limits it answers as the unlimited program does. parse, which also walks the tree it returns, nests at most the larger of that bound (plus one) and the number of nodes returned. For example 5 the linear bound alone suffices, and linear nesting is unavoidable: accepting q bytes needs depth at least q/2, because the walk over the left-nested tree recurses although the growth of a seed is a loop.", "quantifier": "every well-formed grammar, every text, every position, every reachable state, every pair of limits", "why_tests_cant": "a test observes one stack on a few texts; the claim bounds the nesting for all grammars, texts and states", "anchors": ["parser/src/var_name.rs::_var_name_kernel_growth_function", "parser/src/var_name.rs::_var_name_indirect_left_recursion", "parser/src/parser_core.rs", "parser/src/parse.rs::parse", "parser/src/publisher.rs::clear_false_kernel"]}
{"id": "C97", "title": "The stores of the core used on their own: Source, BasicPublisher, BasicCache", "statement": "In every generated crate and every crate of the repository, executed as Rust: a Source answers get_len, get_char, get_multiple_chars and get_string as slices of its text (its length in a u32, get_multiple_chars refusing a slice that reaches the end, get_string panicking exactly within a character or for crossed ends); a BasicPublisher on which add_node, connect, connect_if_not_connected, clear_node_of_children, set_node_start_position, set_node_end_position, set_node_result, get_node and len are called in any order does what a list of nodes does, answer by answer, and panics exactly where a key does not exist, a node would be its own child through connect, or 2^32 nodes exist; so if nothing panics the root stays the root, every node is at its key, and without connect no node has a child twice; and every answer of a BasicCache (check, check_head, rule_in_involved_set, rule_in_eval_set, get_current_active_lr_position) after any calls depends on the history as a last-write-wins table's does, reinitialize_eval_set and remove_from_eval_set panicking exactly without a head.", "quantifier": "every generated crate of a well-formed grammar whose names can be used, every text, every finite sequence of calls with any arguments, every sufficient bound on call depth", "why_tests_cant": "Histories of calls are unbounded, and a store's answer may depend on all of them; the repository's tests make a few fixed calls, and none on most of these methods.", "anchors": ["parser/src/source.rs: get_char, get_multiple_chars, get_string, get_len", "parser/src/publisher.rs: BasicPublisher add_node, connect, connect_if_not_connected, clear_node_of_children, set_node_*, get_node, len", "parser/src/cache.rs: BasicCache"]}
