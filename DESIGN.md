# A Lean 4 model of ppparser

## Layout

* `lean/Verif/Model/` – executable model, function by function, each definition cites `/repo` file:lines.
* `lean/Verif/Spec/` – small independent specifications (PEG semantics, PEG with invocation trees, context-free
  derivability, graph notions, DSL syntax printing ...). They mention no model function except the grammar syntax.
* `lean/Verif/Lemmas/` – proofs' machinery.
* `lean/Verif/Props/` – the property theorems (names listed in MANIFEST.json) with non-vacuity `example`s beside them.

## Modelling choices

* `&mut` / `RefCell` state becomes a state value threaded through every function (`St` = memo cache + heads + active
  left recursion + node vector + user state).  RefCell borrow flags are left out of this model; `Model/Borrow`
  is the same code with them, and C67 proves that the two agree.
* Outcomes are `Out`: `ok`, `panic` (index out of range, failed `expect`, debug assertion, slice errors) or `oof` (out of
  fuel).  Every loop/recursion takes fuel; a Rust run that returns is a model run with enough fuel; divergence is
  "`oof` for every fuel".  All fuelled functions are proved monotone in the fuel.
* `u32` positions are `Nat`; C02 proves they stay `<= source_len < 2^32`, so no arithmetic wraps. The `as u32`
  truncation of the source length *is* modelled (C43).
* Generated closures (`_sequence(&closure_1, &closure_2)` ...) are a deep embedding `Expr`; a generated parser is a map
  from rules to `Expr`.
* `HashMap`/`BTreeSet` are trusted to be finite maps / sets; where iteration order could matter it is an explicit argument
  (C26).
* Hooked calls are interaction programs that may call the wrapped closure any number of times and read/write user state.

## Plan per property

"Proof" names the method; the theorem names are in `MANIFEST.json`, each beside an `example` meeting its hypotheses.

| id | what is modelled | how it is proved |
|----|-------|-------|
| C01 C02 C03 C16 C18 C24 | `eval` (all of `parser_core.rs`, `var_name.rs`, `context.rs`, `cache.rs`, `publisher.rs`) for all grammars incl. left recursion and hooks | one safety invariant (`done` keys, cache/heads consistency, CFG derivability), induction on fuel (`Lemmas/Inv`, `CoreCtr`, `VarNameCtr`, `EvalCtr`) |
| C04 C05 C06 C15 C21 C49 | `eval` on LR-free grammars, `parse` | refinement to the PEG-with-trees spec: soundness by induction on fuel, completeness by induction on the derivation; unfolding of the node graph |
| C07 C08 C50 | `eval`, growth loop | well-founded measure (active?, absent heads, eval set, remaining input, rank, size) for rank certificates; the certificates of the concrete grammars are checked by the kernel |
| C09 | `eval` | invariant: allocated nodes = distinct (rule, position) pairs |
| C10 C11 C12 C13 C14 | `parser_core` kernels | direct, for arbitrary closures; divergence by induction on fuel |
| C17 C19 C20 C45 C46 | `publisher.rs` | induction on unfolding trees |
| C22 C51 C60 | growth function, `should_go_into_growth_function` | a refinement of directly left-recursive grammars to grammars with iteration (`Lemmas/DirectLR`), loop induction; `Spec/PlainLR` for tails and seeds that may match empty |
| C23 C27 | `eval`, detector | positive part by refinement; divergence by induction on fuel; witnesses evaluated in the kernel |
| C25 C26 C28 | `cycle_detector.rs` passes over arbitrary iteration orders | least-fixpoint argument against paths of a graph (`Spec/Graph`) |
| C29 C30 | `symbol_table.rs`, enum generation | sort/dedup lemmas |
| C31 C32 C33 C34 C37 C57 | `constructor.rs`, `binary_wo.rs` | structural induction over syntax trees; the emitted statements are executed by a small semantics of the emitted Rust fragment (`Spec/Rust`) and compared with the denotation of the written expression (`Spec/Meaning`) |
| C35 C36 C38 C40 C53 C54 | `generate_parser` over the DSL parser model | a concrete syntax of grammar files (`Spec/Cst`) whose printings are proved to be exactly what the DSL parser accepts (both directions, on the PEG of `Grammar.dsl`); inversion of the tree; composition with C04–C06/C32 and, for left recursion, C22/C58 |
| C39 C55 C56 | `runner/src/{main,data}.rs` as an interaction program over file-system calls whose answers are arbitrary | invariant over every prefix of every interaction; the faultless disk for C55 |
| C41 | example 11 with its hook | loop invariant over `hooked_calls.rs` |
| C42 C43 | `source.rs` | direct |
| C44 | `cache.rs` | induction over operation sequences |
| C47 C48 C58 C59 | examples 5, 6, 10 and every directly left-recursive grammar | instances of the refinement, with trees (`Lemmas/GrowTree`) |
| C52 | `clear_false` | a family of grammars, exponential lower bound by induction |
| C61 | `clear_false`, `parse` | an abstract interpretation of expressions that bounds the nodes left behind by failing alternatives (`Spec/Linear`), sound by induction on PEG-with-trees derivations; its certificate for the DSL grammar is checked by the kernel |
| C62 | `_var_name_kernel_indirect_left_recursion`, growth, memo, heads, eval sets | spec: `Spec/Group` (`groupBody` rewrites a group to iteration, `GT`/`HV`/`GGrown` the trees); `eval` is abstracted to runs over trees (`Lemmas/Group/TreeEval`), then an invariant over the growths in progress, by induction on the height of the run |
| C63 | the generated parsers of examples 7–9 | instances of C62, inverted to byte-level statements |
| C64 | example 1: parser and evaluator (`Model/Calc/Calc1.lean`), `i64` and `str::parse` (`Model/Calc/Arith.lean`); sums as abstract syntax in `Spec/Calc.lean` | instance of C62, trees related to syntax by induction on growth; evaluator by induction on syntax; unique readability from trailing digits |
| C65 | example 3: parser and evaluator (`Model/Calc/Maths.lean`, shared with example 4; a table of match arms per example); expressions as abstract syntax, text, trees and value in `Spec/Calc.lean` and `Spec/CalcTree.lean` | C62 gives iteration and left-nested trees; a small calculus relates PEG expressions to the longest text of a syntactic class (`Lemmas/Read`), by induction on the nesting for parentheses; evaluator by mutual induction on syntax |
| C66 | example 4: as C65, with powers (`as u32` truncation included) | same proofs, parametrised by whether there are powers |
| C67 | `Model/Borrow`: var_name.rs with every borrow, borrow_mut and drop as a step on two borrow flags | simulation by `eval` for hooks that hold no borrow while calling back; the converse by evaluation of the first borrow |
| C68 | `Model/Files`: the grammar files `*.dsl`, the enums of `rules.rs` and the function names, copied by `tools/dsl2lean.py` | a decidable check per file (its tree prints the file, is well formed, faithful and closed, and its reading agrees with the checked-in bodies), proved sound once with C38/C54, evaluated in the kernel |
| C69 | examples/json_parser/json.dsl (no parser is checked in): `Model/Grammars/Json` is what the model of the generator makes of it, minus the rule `wsc`; JSON texts are defined in `Spec/Json` | the file check of C68 (the rule `wsc` has no meaning as Rust); a semantics of PEG on the remaining bytes, induction on the derivation of `IsJson` and on the length of the text; linear-tree certificate (C61) for totality |
| C70 | `Model/Depth`: the interpreter and `clear_false` with the nesting of calls limited separately from the iterations of loops | induction on (bytes left, rank of the first references, height of the expression) for the upper bound; the height of the tree `clear_false` walks for the lower bound; for JSON, the tree of `[[…]]` by induction on the nesting |
| C71 | no new model; `Spec/Layout` writes a forest out as a table of nodes and as printed lines | induction on the tree `clear_false` walks, following the node vector as a list; printing by induction on the layout |
| C72 | `Model/Sample`: parser/src/sample_main.txt (main.rs of every generated crate) as a function from the file to printed lines and exit status | C71 for the printed tree, C04 for the message, C69 for JSON; UTF-8 by the lemmas of Lean's core library |
| C73 | example 2: parser, and evaluator (`Model/Calc/Ab`); words and trees in `Spec/Ab` | its group of rules is outside C62 (two heads that call each other first); the growth rounds are executed symbolically on an explicit state (memo, heads, eval set, node vector), one lemma per call, then induction on the round; `clear_false` is total when the pruned tree fits (`Lemmas/ClearFits`) |
| C74 | the text of `parser.rs` and `rules.rs` (`Line.text`, `RuleCode.text`, `parserFile`, `rulesFile`, as bytes); reading it back: `Spec/RustText` (lexer, reader and meaning of the fragment of Rust the generator uses), `Spec/Usable` (the condition on names) | the lexer is run over the emitted text piece by piece (`Lemmas/Text/Lex`, `Line`, `File`), the reader over the tokens (`Read`), and the statements read are simulated by those of C32 (`Sim`); the lines of a function are traced back to the references and hooks of its rule (`Lines`), which gives both directions of the condition (`Usable`, `Program`) |
| C75 | `Model/Texts`: the checked-in `parser.rs` and `rules.rs` of the parser of grammar files and of the eleven examples, byte for byte (copied by `tools/rs2lean.py`) | they are read as Rust with `Spec/RustText`, and compared with the bodies of `Model/Grammars` and with what the generator writes; the comparison is a Boolean function, proved sound, evaluated in the kernel; "up to date" combines it with C68 and C74 |
| C76 | `Model/CoreTexts`: the core files (keys, source, user_state, hooked_calls, cache, publisher, context, parser_core, var_name, parse) byte for byte (copied by `tools/core2lean.py`); `Spec/Mini`: a reader for the fragment of Rust they are written in and an interpreter that executes it (values, places, closures, `Rc<RefCell<_>>`, `panic!`/`expect`/overflow as panics, fuel for calls and loops) | the reader is run in the kernel; the interpreter is proved monotone in fuel; per core function one lemma that the executed text simulates the model function (an encoding of the model state into interpreter values), closures by induction on the expression, whole parses by induction on fuel; the checks on each crate are a Boolean function proved sound and evaluated in the kernel |
| C77 | the crate the runner makes of generated code: the core files byte for byte and the `rules.rs`/`parser.rs` of `Model/Runner`, read and executed by `Spec/Mini` (`Spec/Mini/Runnable`: what the names of the grammar must satisfy) | for an arbitrary well-formed grammar: the words of the written files are computed (`Lemmas/Mini/Words`, `Lines`), the reader is shown to read them as one function per rule (`ReadFile`), whose executions simulate the model's closures (lemmas of C76); then C54, C06 and C27 are transported from the model to executions of the text |
| C78 | example 11 with its own user_state.rs and hooked_calls.rs, byte for byte (`Model/CoreTexts`), read and executed by `Spec/Mini` | the part that a user writes is a parameter of the lemmas of C76 (`Lemmas/Mini/User`, `UserSim` in `Whole`): its hooked calls must simulate the model's; for `unique_line_cache` (and `Source::get_string`, which it calls) that is shown by symbolic execution; then C41 is transported to executions of the text |
| C79 | generated crates with hooked calls: the files of C77, but user_state.rs and hooked_calls.rs are example 11's, and the grammar is any grammar whose hooked calls are `unique_line_cache` (`RunnableWith`, Spec/Mini/Runnable) | C77's reading lemmas generalised to hooked lines and hook imports; `unique_line_cache` meets the contract of hooked calls (`HookOK`, Spec/Calls), so C27 and C54 apply; for example 11's own grammar file the chain file – generated code – executed text – unique lines (C41) is closed |
| C80 | the store `parse` returns (C71) and `clear_false`; `Expr.Invokes` (Spec/Named): the rules an expression refers to by name, through inlined rules | every forest of the run relation consists of invoked rules (induction on `Run`), pruning and the layout keep that; pruning is idempotent and the layout of a forest clears to itself |
| C81 | the calculators' source text: `lib.rs` of examples 1–4 (`Model/CoreTexts`), read and executed by `Spec/Mini` together with the text of their parser crates; `runCalc` (Spec/Mini/Evaluate) is `parse` followed by `evaluate_tree` | each function is simulated, both ways, by the hand-written model of C64–C66 and C73; the tree that `parse` returns has only rules with a variant (C80) and clears to itself (C80); with C64–C66 and C73 the executed text calculates: right values for every expression, and nothing else for any text |
| C82 | regeneration: `generateParser` on each shipped grammar file, the crate files it writes, and the shipped crate's source text, both read and executed by `Spec/Mini`; `Spec/Same` says when two parsers are the same but for the names of rules and the order and repetition inside involved sets | the interpreter `parse` preserves `Same` (simulation over fuel, `Lemmas/Same`); any two rule types that link with the same generated code are `Same`; so the executed crates of C76–C79 agree, for every file and every hash order (`Remakes`); C77/C79 for any linked rules (`C82_linked_rules_executed`) |
| C83 | two grammar files with the same rules up to white space, comments, rule order and a consistent injective renaming (`Spec/Respelt`), both put through `generateParser`, the crates executed | the left-recursion, inlining and involved-set computations commute with respelling (`Lemmas/Respelt`), so the two parsers are `Same` and C82's simulation applies; with no renaming also the enum variants agree, so the executed crates return equal values |
| C84 | the source text of the generator (binary_wo.rs, symbol_table.rs, cycle_detector.rs, constructor.rs, lib.rs, with keys.rs and publisher.rs of the parser crate), byte for byte (`Model/GenTexts`), read by a reader of a larger fragment of Rust (`Spec/Rs/{Lex,Reader}`) and executed by `Spec/Rs/Interp` (values, `&mut` write-back, `Vec`/`HashMap`/`HashSet`/`String` operations, hash order as a parameter) | the reader's result is computed by the kernel file by file (`Lemmas/Rs/Texts`); each function of binary_wo.rs is executed symbolically (`Lemmas/Rs/{Basic,Tree,ToString}`), induction over the model's fuel for the recursion |
| C85 | generator/src/symbol_table.rs as text, executed as in C84 on the tree of a grammar file and its source text | the functions of symbol_table.rs executed symbolically, loops against the folds of the model (`Lemmas/Rs/{Sim,Symbols}`), induction over the model's fuel for the walk |
| C86 | generator/src/constructor.rs as text, executed as in C84 on a tree, a symbol table and the sets of the detector, up to the contents of the two files | every function of constructor.rs executed symbolically (`Lemmas/Rs/{Leaves,Expr,Construct,Generate}`): induction over the model's fuel for the mutually recursive expression functions, loops against the folds of the model, an invariant of the output trees (`Lemmas/Rs/OutTree`: printable, keys in range) that links them to C84 |
| C87 | generator/src/cycle_detector.rs as text, executed as in C84 on a tree and its text: `LeftRecursionDetector::new` and `get_left_recursion_rules` | every function of cycle_detector.rs executed symbolically (`Lemmas/Rs/{Cycles,CycleWalk,CycleLeft,CycleFix,Detector}`); an order of iteration of values is turned into an order of the model (`Lemmas/Rs/CycleSets.ordOf`); the fixpoint loops need an invariant (sets without repetition of names that occur in the tree) so that the counts stay below 2^64 |
| C88 | the calls of `generate_parser` (generator/src/lib.rs:51-55) chained: `SymbolTable::new`, `LeftRecursionDetector::new`, `GeneratedCode::new` and the two files, executed on the tree that parsing and `clear_false` give (`Spec/Rs/Chain`) | C85–C87 chained; that the tree of a written grammar meets `Given` (positions, widths, sizes of output trees, strings) is proved from the concrete syntax (`Lemmas/Rs/{GramTree,GramGiven}`); the executed hash order never reaches the files because the model's result does not depend on it (C26, `gen_conv`); the twelve grammar files of the repository by C75 |
| C89 | `generate_parser` (generator/src/lib.rs:14-57) from the contents of the file to the two files (`Spec/GenerateParser`): the text of parser/src executed by `Spec/Mini`, that of generator/src by `Spec/Rs`; the order of the calls in `generate_parser` is transcribed (its `read_to_string`, `println!` and `into` are not executed) | the simulation of C76 for the function `grammar` called directly (`Lemmas/Mini/Front`), `count_lines` (`Lemmas/Rs/Lines`), then C88; the three outcomes exclude each other because execution is a function and the value of a tree determines the tree; which outcome by C53 |
| C90 | From the text of a grammar file to what the parser made of it does (`Spec/Compile`): `Compiles` = the executed `generate_parser` makes the two files, and the crate of the core files, the user's files and these reads as a program; `Generation k` = the generator in the repository, and each next one with the parser crate the one before makes of the grammar of grammar files | C89 for any parser crate whose `grammar` and `clear_false` do what the model does (`FrontOK`), which is shown of the checked-in one (C89) and of the one made of the grammar file (the simulation of C76 on generated code, `generated_crate_with`); then C77, C79, C82 about the made program |
| C91 | `test-grammar-proc-macro`: the tests for the entries of a directory (`Model/TestMacro`): file stem, name of the test, panic of `Ident::new`, body of a test | induction over the list of entries; C38 and the inversion of the parser of grammar files for what makes a test pass |
| C92 | The calculators (C81) with the parser that the executed generator makes of their grammar files (C90) instead of the checked-in one | the world of generated code with the example's lib.rs as one of the user's files (`generated_world`); the evaluator lemmas of C81 hold of any world whose `parse` computes the model (`Lemmas/Mini/CalcResults`) |
| C93 | The runner (`Model/Runner`, `Spec/Disk`) together with the reader of crates (`Spec/Mini/Read`): a directory with the files of a crate *is* a program (`FS.IsProgram`); the eleven runs of update_parsers.sh in order (`Spec/Script`) | C55 for the contents of the files after a run; induction over the lines of the script with what stays the same; C82 for equality of behaviour, C90 for what the executed generator makes; a disk with the repository is given |
| C94 | Calls of the functions of the core by hand (`Spec/Mini/ByHand`): `make` executes the calls that build the closure of an expression, `runByHand` calls it from a fresh context at a position | the simulation of closures by the model's evaluator (C76), which is for every closure, position and state; then C04, C05, C24, C01, C02 on the model, and the linking of generated code (C54) |
| C95 | Sessions (`Spec/Mini/Session`): `runSession` makes any number of calls by hand on one context, `evalAll` is the same on the model | induction on the calls: the simulation of closures (C76) carries the relation of heap and state from one call to the next; C04, C05, C24, C01, C02 hold in every state reached by earlier calls |
| C96 | `Model/Depth` again (nesting limited separately from iterations), now for left-recursive and hooked grammars | the termination measure of C07 (weight of heads and evaluation sets, bytes left, rank of first references, height) never grows along nested calls, so its components add up to one linear bound; `clear_false` nests at most as deep as the nodes it copies; lower bound for example 5 from the left-nested tree of C47 |
| C97 | Executed Rust (`Spec/Mini`): constructors and public methods of the three stores called on their own (`Spec/Mini/Store`), the text of whose functions is read by the crate checks of C76; not in the interpreted fragment and so not executed: `connect_front`, `disconnect`, `clear_tree`, `print*`, the comparisons (C19, C45 and C46 have them at model level); sets are given as `BTreeSet` values | each method executed symbolically once on the encoded store; induction on the calls; the list of nodes is the specification of the tree, the last-write-wins table of C44 that of the cache |

## Trusted base

* **Lean's kernel** (4.33.0).  No axioms are added; no compiled evaluation is used anywhere in a proof (`decide +kernel` is
  kernel reduction).  Of the theorems in `MANIFEST.json`, all depend on at most `propext`, `Classical.choice` and `Quot.sound`;
  most on all three, about thirty on `propext` (and `Quot.sound`) only.  Reproduce with `#print axioms <name>`.
* **The transcription** of Rust into the model, function by function (each definition cites its lines), with the choices above.
* **The specifications** in `lean/Verif/Spec/`.

### What is modelled

| code | model | remarks |
|------|-------|---------|
| `parser/src/parser_core.rs` | `Model/Core`, `Model/Interp` | all combinators; closures are syntax (`Expr`) |
| `parser/src/var_name.rs` | `Model/VarName` (and `Model/Borrow`, with borrow flags) | both `_var_name` forms and the growth function |
| `parser/src/context.rs`, `cache.rs` | `Model/Context`, `Model/Cache` | printing omitted |
| `parser/src/publisher.rs` | `Model/Publisher` | arena, `clear_false`, equality, `print` (as list of lines) |
| `parser/src/source.rs` | `Model/Source` | UTF-8 boundaries included |
| `parser/src/parse.rs`, `parser.rs` and the eleven example parsers | `Model/Parsers`, `Model/Grammars/*` | the grammars were translated mechanically by `tools/translate.py`, and C75 proves that the checked-in texts, read as Rust, define exactly these rules and bodies; the other files of the example crates are copies of the core's (they differ only in the order of imports) |
| example 11 `hooked_calls.rs` | `Model/Parsers` | |
| `generator/src/*` | `Model/Gen/*` | strings as UTF-8 byte lists; case mapping and trimming only for ASCII |
| `parser/Grammar.dsl`, `examples/*/*.dsl`, `rules.rs` | `Model/Files` | copied by `tools/dsl2lean.py`; one string per rule |
| `examples/example_{1,2,3,4}/src/lib.rs` | `Model/Calc/*`; the text in `Model/CoreTexts`, executed by `Spec/Mini` | evaluators over the returned tree; C81: what the text computes is what the hand-written model computes |
| `parser/src/sample_main.txt` | `Model/Sample` | error texts and the path left out of the printed lines |
| the text of the core files, `parser.rs`, `rules.rs` (parser/src and examples 1–10) | `Model/CoreTexts`, `Model/Texts`, executed by `Spec/Mini` | C76: what the text computes is what the hand-written model computes |
| the text of example 11 (hooked call, user state) | `Model/CoreTexts`, `Model/Texts`, executed by `Spec/Mini` | C78: what the text computes is what the hand-written model computes |
| the text of the crate generated from any grammar without hooked calls | `Model/Runner`, `Model/CoreTexts`, executed by `Spec/Mini` | C77: what the generated text computes is what the grammar file says |
| the text of `generator/src/*` with `keys.rs`, `publisher.rs` | `Model/GenTexts`, `Model/CoreTexts`, executed by `Spec/Rs` | C84–C90: what the text of the printer (binary_wo.rs), of the symbol table (symbol_table.rs), of the constructor (constructor.rs) and of the detector of left recursion (cycle_detector.rs) computes is what the hand-written model computes |
| `runner/src/*` | `Model/Runner` | `clap` argument parsing is replaced by the parsed values |
| `test-grammar-proc-macro/src/lib.rs` | `Model/TestMacro` | ASCII file names; `shared`, which no file of the repository defines, is taken to run the start rule |

The texts of the generator are read by the kernel (`decide`-free: the command `fast_file` of `Lemmas/FastText` only writes down the terms
`fileOf c = fileOfNats d`, which the kernel checks like any other theorem).

### What is not modelled

* The size of a native stack frame and the point at which the stack overflows (C70 and C96 bound how many frames are nested,
  but not their bytes), running time, memory exhaustion other than 32-bit keys.
* Hooked calls act only when their closure is invoked, not while it is constructed, and have no access to the context.
* `HashMap`, `BTreeSet`, `Vec`, `String` of the standard library are trusted.
* The file system: canonical paths, no symbolic links, no concurrent writers, `read_dir` is a snapshot, `cargo` works inside the
  directory it is started in and does not touch hand-written files; what the calls answer is otherwise arbitrary.
* Benches, tests and the Rust compiler: C31/C32/C54 use a small
  semantics of the statements the generator emits; whether a byte literal compiles is stated syntactically.  C74 reads the emitted
  text with a lexer and reader for the fragment of Rust it uses (names, literals, calls, closures; no types are checked).
* Of Rust as executed by `Spec/Mini` (C76–C79, C81): no types and no borrow checking at compile time (the texts compile), values are copied where
  Rust moves or borrows them, a `RefCell` does not count its borrows (C67 does), `HashMap`, `BTreeSet` and `Vec` are built in and capacities
  ignored, `use`, `mod`, `impl Trait`, tests and attributes are skipped; what `println!` writes is ignored (its arguments are evaluated); integer overflow panics, as in debug builds.
* Of Rust as executed by `Spec/Rs` (C84–C90): the same, and references have no addresses: a shared reference is the value, a `&mut` parameter is copied
  in and written back; `HashMap` and `HashSet` are iterated in an order given by a function of their contents (a parameter, over which the theorems quantify; the model, with C26, also covers an order that
  changes from one traversal to the next);
  case mapping, `trim` and `chars` only for ASCII strings (`stuck` otherwise, which the theorems exclude); indoc's `indoc!` is built in;
  integers other than `u32` have 64 bits; `{:?}` of a `Vec<char>` is not in the fragment, so C86 excludes string terminals with characters
  above 127 (written as hexadecimal escapes); the trees C86 makes for a rule have fewer than 2^32 nodes.
* Of update_parsers.sh (C93): that `cargo run` compiles the runner, and the last line, `cargo fmt`.
* Optimised builds: debug assertions are modelled as panics.

### Checks of the model besides proofs

* `tools/run_generator.lean.txt` and `tools/compare_generated.py`: the Lean generator, run on the twelve grammar files of the
  repository, produces the checked-in `parser.rs` up to the formatting of rustfmt (an experiment, superseded by C75).
* `Verif/Props/RepoTests.lean` (made by `tools/repo_tests.py`): 70 of the repository's own tests — all of the examples' tests that parse a
  given text, four of parser/tests — hold in the model, results, evaluations and expected trees included; nothing in the model was adjusted for them.
  Tests, not proofs: they check the model against what the developers observed.
* `seeded/LOG.jsonl`: wrong programs.  Each line is one edit of one model definition, made in a scratch copy, with the
  declarations that no longer compile.
