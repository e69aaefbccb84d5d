# Formal model of cargo-config2 in Lean 4

The code modelled is the library in `/repo/src` (cargo-config2).  The model lives in `lean/Verif/Model`, small specifications in
`lean/Verif/Spec`, helper lemmas in `lean/Verif/Lemmas`, and the theorems claimed in `MANIFEST.json` in `lean/Verif/Props`.  Every
model definition cites the file and lines it models and states its simplifications in its comment.

## Conventions

* A Rust `str`/`String` is a `List Char` (`Str`).  Byte offsets, where the code uses them (cfg lexer), are real UTF-8 byte offsets
  (`Char.utf8Size`), and slicing at a non-boundary is an explicit panic value.
* `Result` with possible panics is `Res a = ok a | err e | panic`.  A panic (`unwrap`, slice, `debug_assert`, arithmetic overflow) is
  a visible outcome, never totalised away.
* `&mut self` methods return the new value.  On `Err` the partially updated value is dropped, as all callers in the library do.
* `BTreeMap<String, V>` is an association list sorted by key (insert keeps it sorted), `HashMap` is an association list with distinct
  keys in arbitrary order.
* `OnceCell`/`RefCell` caches are fields of an explicit state (`Cells`) that every query threads; the state also records the trace of
  processes run and a clock, so that the outside world may answer differently every time it is asked.  `Model/Borrow` has the queries
  once more with the guards of the `RefCell`s and the checks of the `OnceCell`s; C74 shows that both models agree.
* The outside world is a parameter: existing files and their contents (`Fs`), the process environment (`ProcEnv`), the home directory,
  the outcome of running a command and of `exists` at each moment (`World`, which also says whether overflow checks and debug
  assertions are on).  Theorems quantify over all worlds.

## Trusted base

* Lean's kernel (the gate replays every constant).  Axioms used by any theorem: at most `propext`, `Classical.choice`, `Quot.sound`;
  `AXIOMS.txt` lists them for each claimed theorem (output of `#print axioms`).  No own axioms, no `sorry`, no compiled-code
  evaluation.
* The reading of the Rust code into Lean definitions (function by function, line references in the comments).
* The model of the standard library: `str::split/trim/lines/strip_prefix/..`, `char::is_whitespace` (the 25 Unicode White_Space
  characters), `u32/i32/bool::from_str`, `BTreeMap`, `HashMap`, `OnceCell`, and Unix `Path` (components, parent, ancestors, join,
  file_stem, extension, is_absolute, equality).  Windows paths are not modelled.
* Specifications use of the model only data types and the model of the standard library; the exceptions are `Expression.parse` and
  `Expression.eval` in the specifications of target settings (characterised by C35 and C36), `CfgSet.parse` (by C40 and C42),
  `TargetTriple.new` as "was made by a constructor" (by C16), and the functions under test in statements about sequences of queries.
* Parameters, i.e. not modelled: the TOML text parser (`toml_edit`: text to value tree; assumed only to give tables with distinct
  keys), the file system calls, process creation, `std::env`, lossy conversion of non-UTF-8 paths, allocation failure, serde's derive
  expansion beyond the shapes described in `Model/Serde.lean` (a struct is read from a table only, an enum from a string only).
* Error values are modelled by structure (which kind, which key/variable, which source), the exact wording of messages only where a
  property talks about it.

The reading of the code is checked against the crate's own tests: `Verif/Conformance/` transcribes the unit tests of
src/cfg_expr/tests, src/env.rs, src/resolve.rs and src/walk.rs and the tests of tests/test.rs that use the library alone (the
reference configuration, `no_manifest_dir`, `de`, `custom_target`) and evaluates them on the model.  Where a test runs the compiler,
its output is given; where it reads TOML text, the document is given.  These are tests of the model, no property rests on them.

Which parts of the code are modelled:

| source | model | not modelled |
|--------|-------|--------------|
| src/walk.rs | `Model/Walk`, `Model/Path`, `Model/Entry` (`Walk::new`) | Windows |
| src/value.rs | `Model/Value` | |
| src/de.rs | `Model/Config` (types), `Model/Env` (`apply_env`), `Model/Query` (`resolve_target`), `Model/Load` (`_load_with_options`, `set_path`), `Model/LoadTime` (the same while files change), `Model/Entry` (`load`, `load_with_cwd`), `Model/Serde`, `Model/Lists` (flags, string lists, commands) | |
| src/merge.rs, src/gen/*.rs | `Model/Merge`, `Model/Serde` (`is_none`), `Model/Debug`, `Model/DebugAll` | generated `assert_impl` |
| src/resolve.rs | `Model/Context`, `Model/Target`, `Model/CfgExpr` (`Cfg::parse`), `Model/Version` (versions) | |
| src/easy.rs | `Model/Easy`, `Model/Query`, `Model/Entry` (`load`, `load_with_cwd`), `Model/Lists` (flags, lists, commands made in code), `Model/EasySerde` (serializers), `Model/Borrow` (checks of the cells) | |
| src/cfg_expr/*.rs | `Model/CfgExpr` | |
| src/process.rs | `Model/Process` (`Cmd`, `Cmd.display`, `runWithOutput`, `procRead`), `Model/Context` (commands) | the lossy conversion of what is not Unicode in messages |
| src/error.rs | `Res`, `Err` of `Model/Basic`, `Model/ErrorText` (`Display`, `source`, conversion to `io::Error`) | how errors of `std` and of `toml_edit` are shown (a parameter), `Debug` |
| src/env.rs | `Model/Env` | |
| examples/get.rs | `Model/Get` | taking the command line apart (`lexopt`), the text of TOML and JSON values, shell escaping, failures to write |

## Properties: what is modelled and how it is proved

| id | model | proof idea |
|----|-------|-----------|
| C01-C03 | `Path`, `Walk`: the iterator as a state machine, path strings | induction over ancestors; refinement to the list of search directories; injectivity of `join` for no duplicates |
| C04 | `Walk`, `Context` | decision logic; non-interference of the options' environment |
| C05-C07, C09 | `Config`, `Merge`, `Load` (fold over the walk) | induction over the chain of files, for every key, against `firstSome` / concatenation specifications |
| C08 | same | iff with an independent relation of incompatible shapes |
| C10 | same | algebra of merge; associativity up to error identity; neutral element |
| C11, C12 | `Load` with the world's files | induction over the chain; "all definitions in" preserved by merge |
| C13, C15 | `Value`, `Easy` | decision logic plus path lemmas (grandparent of `d/.cargo/config` is `d`) |
| C14 | same | false as stated: see below; partial theorem under the exact side condition |
| C16 | `Target` | false as stated (panic for `/`, `a/..`, `./`): exact panic condition, partial |
| C17 | `Target` | file stem invariance under join; the cli string determines the triple |
| C18 | `Context`, `Env`, `Target`, `Query` | the read set of each function is a list of names that pass the filter; congruence in the environment, for applying it and (`C18_load`, `C18_process`, `C18_given`) for loading with all later queries |
| C19 | `Env`, `Query` | permutation induction; `C19_load` for loading with all later queries |
| C20-C23, C25, C26 | `Env` | field-by-field decision logic, fold lemmas for the dynamic names |
| C24 | `Env` | false as stated: negation with witness, partial for all others |
| C27-C32 | `Query`, `Target` | decision logic and induction over the cfg tables against independent specifications; each also stated of the single query (`C27_query` …); the variables a query looks at are named through `EnvNameOf` |
| C33, C34 | `Query` state machine with process trace | invariant over arbitrary query sequences |
| C35 | `CfgExpr` lexer and shunting-yard machine | false as stated: negation by witness, exact accepted grammar sound and complete |
| C36 | same plus evaluator | refinement to the recursive truth-value of the syntax tree; false in general: negation, and the exact bound |
| C37 | same | invariant: spans on boundaries, stack depth; false with overflow checks: negation, partial, and the exact condition for the panic (`C37_panics_iff`) |
| C38, C39 | lexer | lexer/printer theorem; span invariant |
| C40, C42 | `CfgSet` | line-wise induction |
| C41 | evaluator generic in the logic | induction on the syntax tree; completeness for the strong Kleene reading |
| C43-C48 | `Version`, `Context` | printer/parser theorem for versions; state machine over arbitrary process outcomes; C46 and C48 are false as stated: negation plus partial |
| C49 | `Query` | decision logic |
| C50, C51, C56 | `Lists` | list inductions; also the message of the error, which names the separator; C50 is false for leading empty flags and the empty list: exact iff |
| C52-C54 | `Serde` | round trip over the TOML value tree |
| C55 | `Debug`, `DebugAll` | non-interference on debug trees and errors; negation for the whole `easy::Config` |
| C57 | all | composition of the walk, documents, merging, environment and resolution |
| C58, C59 | `Value`, `Lists` | outright |
| C60, C61 | `Context`, `Version` | decision logic; invariant over arbitrary query sequences |
| C62 | `Serde` | iff between acceptance and an independent description of well-typed documents, for all keys at once |
| C63, C64 | all | composition of C57 with C27-C30; C64 inherits the panic of C14 |
| C65 | all but: after a reload, targets with a spec file and targets not asked for (`C65_round_trip_partial`, `C65_spec_fails`, `C65_targets`) | writing equals writing the unresolved config with the same values (`EConfig.ser_toDe`), which C52 covers; loaded settings are "portable": paths absolute or plain program names, so resolving them again changes nothing (`loads_portable`, `reload_ok`). Writing to text and parsing the text is assumed to give the same TOML document back |
| C66 | all | composition of C01, C62, C08, C23 with the exact condition under which resolving a path panics; this makes the side condition of C14 exact |
| C67 | the first defect in order is reported; the files are always named (`C67_cause_partial`, `C67_first_file`), variables with two exceptions, and of two files that do not agree one is named (`C67_protocol_fails`, `C67_browser_fails`, `C67_merge_fails`); the cause of a failed merge tells the first setting written differently (`C67_merge`) and shows both values (`C67_shown`) | inversion of loading (the errors of each step, in order), with the messages written out in `Spec/Cause`; the condition of being in order is that of C66 |
| C68 | all | case analysis of the error, C67 for the cause |
| C69 | commands and targets in any state (`C69_host`, `C69_rustc_version`, `C69_cargo_version`, `C69_target_partial`), and that nothing else fails (`C69_queries`); one variable is not named (`C69_runner_fails`) | inversion of the queries, with the messages written out in `Spec/QueryCause` |
| C70 | all: success, error and panic, and which key's error it is; with `C70_*` the side condition of C64 is gone | exact characterisation of the loop over the `cfg(..)` keys (where it stops and with what), then `Decides` for the linker and the runner as in C66 |
| C71 | place, reason and message of every rejection (`C71_error_partial`, `C71_message`, `C71_marks`); the lists of what is expected have exceptions (`C71_lists_fails`, `C71_char_fails`) and the marks are displaced in texts that are not ASCII (`C71_marks_fails`) | the prefixes of the grammar are those a small automaton accepts (`extends_iff`); the parser follows the automaton, so that its first error is the first token that does not extend the text; positions by following the spans of the open functions |
| C72 | `Entry`: the public entry points on top of `Load`, `Walk` and `Query` | what the iterator yields is unique and equals the walk of C01; congruence of the walk and of the loading loop in the file system |
| C73 | `Lists`: builder methods and conversions | induction over the sequence of calls; C57 for a single document, with C50 and C51 for the texts |
| C74 | `Borrow`: the queries with explicit guards, which are released in any case; the caller's conversions as trees of calls | simulation of the queries without checks; structural induction over the calls |
| C75 | `Value`: `Display` for `Definition` | prefixes of the texts; C11 with the paths of the walk being absolute |
| C76 | `LoadTime`: the walk and the loop of the load with the answers of the file system depending on the number of accesses so far, recording the accesses | induction on the ancestors that are left: the accesses are those of `Searches`, the result is that of any fixed file system with the same answers; such a file system exists as no access is repeated; witness for non-atomicity |
| C77 | `Serde` (`Config.de`), `Load`, `Query` (`EConfig.loadWithOptions`) | two runs of the reader compared section by section: single readers look no deeper than the surface of a value, tables with arbitrary keys are determined by their lookups; reordering and unknown keys by induction on where they are |
| C78 | `Walk`, `Load`, `Merge` | the walk of the smaller hierarchy is the filtered walk of the larger one (induction on the directories); then the per-setting theorems C05-C09 for both loads, compared by induction on the files; witness for the hidden file |
| C79 | the cells with the trace of started processes, all queries | potential function: the caches not filled yet bound what may still be started; every step pays for the processes it starts with a cache it fills or with its failure; induction over the history; examples where the bounds are attained |
| C80 | `MakesADifference n` is defined by two successful loads that differ in `n` only and are not `Indistinguishable`; `InfluentialVariable` is a list of names and four patterns | `C80_exactly` (the two coincide), `C80_no_other` (congruence of loading and of all queries in the listed variables), `C80_process`; a triple with a slash, which no target has, counts as a triple |
| C81 | all of loading, merging, the environment, resolving and the queries, at two places | relational: every function from `set_path` to the queries maps related inputs to related outputs (values equal, definitions corresponding; outcomes of the same kind), by following the structure of the code; induction over the files, the entries of maps, the tables of targets and the history |
| C82 | `Model/Load`, `Model/Env`, `Model/Easy`, `Model/Query`; `Spec/Settings` (`saidAt`: the documents that have something at a place) | the sources of C57 depend only on what is found at the place of the setting and on its variables; the value is determined by its source; the map of target tables is determined by its entries; the loop over `cfg(..)` tables ignores the other entries (induction) |
| C83 | `Model/Env`, `Model/ErrorText`; `Spec/Reason` (`FreeDefect`, `fixedNames`, `FixedName.defect`, `VarReason`) | each step of `apply_env` is an error with the message of its setting or succeeds; composition over the list of the settings; the loop by induction over the environment; messages about files differ from those about variables |
| C84 | `Model/Get` on top of `Model/Entry`, `Model/Serde` and `Model/Walk`; `Spec/Get` (`PlaceBefore`, `Shows`, `FileBlocks`) | the printed lines are the leaves of the written document, by mutual induction over tables; sorting the keys keeps the value at each place; composition with what is written (C52) and with how files are joined (C05, C06, C07); induction over the files for `--merged=no`; the example C84_ambiguous shows that a key with a dot can be mistaken |
| C85 | `Model/Query` (`TargetAcc.applyEnv`, `resolveTarget`); `Spec/TargetFirst` (`firstTargetDefect`) | case distinction over the four variables; the error is returned before the tables are visited, hence for every state and world |
| C86 | `Model/Walk`, `Model/Load`, `Model/Query`; `Spec/Subdir` (`Below`, `HomeOutside`, `SameOrCurrent`) | the ancestors of the lower directory end with those of the upper; splitting the read files and the joins of C05-C07, C09; for no files in between the simulation of C81 with the relation 'same directory or the two current ones' |
| C87 | `Model/Query`, `Model/Context`; keys `CfgTables` of C63 | two loads are compared as in C82; tables with the same contents are read alike under different keys, and the loop over the tables is the fold over those that are true; for tables left out success, answer and commands run are followed through the loop |
| C88 | As C57, C27 and C47 (end-to-end sources of every setting, the answers of target queries, the compiler line) | `Anchored` = absolute or without separators. From the sources in C57 every value is located in a variable (base: the absolute directory) or a file of an absolute directory, whose base is absolute (C13); joined to it the path is absolute. For queries by induction over the sequence: every stored answer is anchored (`C88_target`, `C88_compiler`). `C88_conditions_needed`: a relative directory or CARGO gives relative paths |
| C89 | As C01 (walk), C81/C86 (two loads compared), `Path::components`, `parent`, `join` | Spec `SamePath` (equal components), `Fs.BySamePath`, `Respelled`. Parents and joins of equal paths are equal paths (from C13), so by induction over the parents the walks correspond file by file (`C89_files`); the directories files belong to correspond; then the relational argument of C81, with `SamePath` as the relation of the base directories. `C89_paths`: what this relation allows to differ is equal as a path. `C89_home`: the Cargo home |
| C90 | As C01 and C81 | Spec `SameConfigIn` (same config file contents in a directory, under either name), `SamePublic` (equal public fields). `parent` of `dir/config` and `dir/config.toml` is literally the same path, so the base directories of corresponding values are equal; the relational argument of C81 with equality as the relation of base directories; what is related by `MovedConfig Eq` and `MovedAnswer Eq` is equal |
| C91 | All queries; a pool of cells, one for each clone | Spec `Untouched`, `CloneStep`, `afterProgram`. Invariant `Settled` of all cells in the pool: the tables are as in C33 (`Consistent`), and what is stored of host and versions is what the steady tools say (`ToolsTrue`); each query preserves it and its answer is determined by it |
| C92 | As C57 | Spec `ScalarKey.InEnv`, `ScalarKey.InFileHere` and likewise for lists, on top of the tables of variables and the documents of C57. Both configs are determined by the source of the setting (C57); the base directory of a variable is the current directory, that of `cwd/.cargo/config` has the components of `cwd`; the ways of writing a value in TOML are injective |
| C93 | As C29, C30, C50, C51 and C57 | Spec `SentEncoded`, `SentPlain`, `PortableProgram`. What holds of every target resolved for the first time holds of every answer after any sequence of queries (induction over the sequence, the table of targets only receives such targets); the first answers by C29/C30, the text of the variable by the round trips of C50/C51, `build.rustflags` and programs by C57, linker and runner by C27/C28 |
| C94 | As C05-C09, C52 and C57 | Merging readable configs gives a readable one (C05, C06, C07), so the round trip of C52 applies to the merged config; what is written ignores locations and the spelling of flags (`Config.ser_bare`, `Config.ser_setPath`); settings of the resolved config by C20 |
| C95 | As C33, C60 and C91; `Spec/Defaults` (calls of setters) | `env`, `cargo`, `cargo_home`: the contexts are equal.  `rustc`, `host_triple`: a cell filled with what would be found satisfies the invariant of C91, so all programs give the answers of the config loaded without.  Order of calls: induction over the list of calls from its end |
| C96 | As C57 and C82; `Spec/ListSpelling` (two TOML values stand for the same list; documents that differ in spelling only) | What is behind a loaded config is the list of the one document (C57), whose elements do not depend on the spelling.  Queries: simulation, forgetting the spelling commutes with each step of resolving a target (induction over the cfg tables); both loads agree after forgetting.  Success: the conditions of C66 carry over, given that the documents are configs.  Condition shown needed by an example |
| C97 | As C57 and C82; `Spec/EnvSpelling` (what a TOML value of an entry stands for) | The sources of the three settings of the entry are computed from what the one document has there (C57, C82); resolving depends on them only through the text, its location and whether the flags are `true`.  Condition shown needed by an example |
| C98 | As C63, C70 and C87, for two targets | The entries of both tables agree by moving them (as in C87), the variables because their names agree (C32), the matching tables by C63; for a specification file the conditions of C70 and the keys that apply carry over, since they depend on the target only through the triple and what the compiler prints.  Condition on the tables shown needed by an example |
| C99 | As C35, C36 and C63; `Spec/CfgCompose` (the texts of composed keys) | The tokens of the composed text are those of the operands with words, parentheses and commas between them (induction on the text and on the operands), so it belongs to the grammar, and C35 and C36 give acceptance and value; C63 gives the tables of the target.  Condition shown needed by an example |
| C100 | As C87, with one more table in the second load | The tables that are true are the same list with one element inserted; linker, runner and flags of the target as functions of this list (first that is present, concatenation) by induction, and what the new table does not state by C82.  The exception for flags of `[build]` is shown to occur by an example |
| C101 | As C87 and C99; `Spec/CfgMeaning` (keys that mean the same, the keys of a config in order) | The laws from C99 by cases on the truth values; the keys that are true are picked from the keys of the config, which correspond to each other, by induction; then C87 |
| C102 | As C16, C49 and C57 | What a string of `build.target` names (C57) is a target that was constructed from a string, so it is made again from the string that is printed (lemma of C17); joining an absolute path to another directory leaves it; induction on the list |
| C103 | As C57 and C63; `Spec/Values` (what the documents have at a place, without file names) | The sources of C57 with the places forgotten depend only on these values; joining lists commutes with forgetting where strings are from (induction); then C57 and C63 |

## Disagreements between code and properties

Each is proved as a theorem about the model with a concrete witness.

| id | what the code does | theorem |
|----|--------------------|---------|
| C65 | only targets that were asked for are serialized, so `[target]` tables of the files are not; a target with a spec file is written under its path but looked up by its stem, so that its settings are lost when the document is loaded; the reload claim also needs spec paths not starting with `cfg(` | `C65_targets`, `C65_spec_fails` |
| C67 | a malformed `CARGO_REGISTRIES_CRATES_IO_PROTOCOL` and an empty `BROWSER` give an error without the name of the variable (src/env.rs 82, 260); if two files do not agree, the message names the farther one and the nearest file of all, which need not be the one it does not agree with (src/de.rs 141-153) | `C67_protocol_fails`, `C67_browser_fails`, `C67_merge_fails` |
| C69 | a blank `CARGO_TARGET_<TRIPLE>_RUNNER` gives an error without the name of the variable (src/de.rs 219) | `C69_runner_fails` |
| C14 | `CARGO_HOME` with no parent (`/` or empty) makes `Definition::root` panic for a relative path in its config file | `C14_home_fails`; for target queries `C64_home_fails` |
| C14, C16 | a target with a slash that does not end in a file name (`targets/..`) panics | `C14_target_fails`, `C16_no_panic_fails` |
| C24 | `CARGO_CARGO_NEW_VCS` is ignored: `cargo_new.apply_env` is never called | `C24_cargo_new_vcs_fails`, `C24_cargo_new_vcs_ignored` |
| C35 | `all(a), b` and `all(a,, b)` are accepted as cfg expressions | `C35_two_roots_fails`, `C35_double_comma_fails` |
| C36 | with several roots only the last counts; without overflow checks the `u8` operand count wraps at 256 functions | `C36_last_root`, `C36_wide_fails` |
| C37 | with overflow checks 256 functions in one operand list panic | `C37_wide_fails` |
| C46 | a repeated version query hits a `debug_assert` if a tool prints a version without a host line, or if the tools change | `C46_fails`, `C46_flaky_fails`; exact condition for every state: `C46_panics_iff` |
| C48 | `rustc_version` ignores the compiler given with `ResolveOptions::rustc` | `C48_fails` |
| C50 | encoding drops a leading empty flag, and an empty list comes back as one empty flag | `C50_roundtrip_fails` |
| C55 | `Debug` of `easy::Config` prints the kept environment, with tokens in variables | `C55_easy_debug_leaks` |
| C71 | a character that begins no token is always answered with "expected one of `<key>`, `all`, `any`, `not`", even where none of them may be (src/cfg_expr/expr/lexer.rs); `)` is listed though no function is open, and functions are not listed after a comma (src/cfg_expr/expr/parser.rs 43-62); columns are counted in bytes, so that marks after non-ASCII characters are displaced (src/cfg_expr/error.rs 43) | `C71_char_fails`, `C71_lists_fails`, `C71_marks_fails` |

Behaviour worth knowing that contradicts no property: flags written as a string are written back as an array (`C52_flags_respelled`);
an `[env]` entry may combine the value of one file with `force` or `relative` of another (`C57_env`); `CARGO_HOME` is read only from
the process environment, not from `ResolveOptions::env` (`C04_process_irrelevant`); `CARGO_TARGET_<TRIPLE>_*` names of different
triples may coincide (`C32_shared_iff`); TOML syntax errors may quote the offending source line, hence `C55_load` is about texts
that parse.

## Mutation testing

`seeded/LOG.jsonl` has one line per wrong program tried: in a scratch copy a definition of the model is edited as a realistic bug
would, and the project is rebuilt.  `theorems_failed` lists claims whose proof breaks.  If the claim's theorem still proves, it is
tightened (`theorems_tightened`) or the reason is given.
