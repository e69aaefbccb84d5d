{"id": "C01", "title": "Walk visits every config location in precedence order", "statement": "Iterating Walk::with_cargo_home(dir, home) yields exactly: for dir and then each of its parents up to the root, nearest first, the config file present in that directory's `.cargo` (if any), followed by the config file of `home` (if any) unless `home` is itself one of those `.cargo` directories; after that the iterator returns None forever.", "quantifier": "every directory path, every CARGO_HOME (or none), every set of existing files", "why_tests_cant": "the number of ancestors and the set of existing files are unbounded; the unit test checks one three-level tree", "anchors": ["src/walk.rs: WalkInner::next, config_path", "src/walk.rs: Walk::with_cargo_home"]}
{"id": "C02", "title": "The extensionless config file wins", "statement": "Every path produced by Walk exists at the time of the walk and is named `config` or `config.toml`; `config.toml` is produced for a directory only if `config` does not exist there, and the two files of one directory are never both produced.", "quantifier": "every directory path, CARGO_HOME, and file system", "why_tests_cant": "needs all combinations of existing files in all ancestors", "anchors": ["src/walk.rs: config_path"]}
{"id": "C03", "title": "No config file is visited twice", "statement": "The paths produced by one Walk are pairwise different as paths (component-wise), so no file contributes its arrays twice, even when CARGO_HOME is (an alternative spelling, e.g. with a trailing slash or `/./`, of) one of the `.cargo` directories being walked.", "quantifier": "every directory path, every spelling of CARGO_HOME, every file system", "why_tests_cant": "spellings of paths are unbounded; a test only samples one CARGO_HOME", "anchors": ["src/walk.rs: WalkInner::next"]}
{"id": "C04", "title": "CARGO_HOME resolution", "statement": "With CARGO_HOME set to a non-empty absolute path, that path is used as is; set to a non-empty relative path, it is joined to the given directory; unset or empty, `.cargo` in the home directory is used, or none if there is no home directory.  A CARGO_HOME given through ResolveOptions::cargo_home always wins and is used unchanged.  Only the process environment is consulted: variables supplied with ResolveOptions::env never influence it.", "quantifier": "every process environment, home directory, current directory and ResolveOptions", "why_tests_cant": "depends on arbitrary paths and environments", "anchors": ["src/walk.rs: cargo_home_with_cwd", "src/resolve.rs: ResolveContext::cargo_home, ResolveOptions::into_context"]}
{"id": "C05", "title": "Hierarchical merge: nearest file wins for single values", "statement": "After de::Config::load_with_options succeeds, every single-valued setting (each key of build, doc, target, http, net, registry, registries, cargo-new, future-incompat-report, term, ... holding a string, number, boolean or enum) equals the value in the first file, in walk order, which sets it, and is unset if no file sets it.", "quantifier": "every chain of config files, of any length, and every setting", "why_tests_cant": "chains and contents are unbounded; each field has its own generated merge line that a test could miss", "anchors": ["src/merge.rs: Merge", "src/gen/de.rs", "src/de.rs: Config::_load_with_options"]}
{"id": "C06", "title": "Hierarchical merge: arrays are joined, nearest file last", "statement": "After a successful load every array-valued list of flags, alias words or build targets is the concatenation of the arrays of all files that set it, farthest file first and nearest file last, losing, duplicating and reordering nothing; when it is a string in all files that set it, the nearest string wins.", "quantifier": "every chain of config files of any length", "why_tests_cant": "unbounded number of files and array lengths", "anchors": ["src/merge.rs: impl Merge for de::Flags, de::StringList, de::StringOrArray"]}
{"id": "C07", "title": "Hierarchical merge: executables with arguments", "statement": "For settings holding an executable with arguments (runner, browser) given as arrays in several files, the program is the one of the nearest file, followed by its arguments, followed by the complete arrays of the farther files in nearest-to-farthest order; given as strings, the nearest string is used as is.", "quantifier": "every chain of config files of any length", "why_tests_cant": "unbounded number of files and array lengths", "anchors": ["src/merge.rs: impl Merge for de::PathAndArgs"]}
{"id": "C08", "title": "Mixing shapes is an error, and the only merge error", "statement": "Merging two configs fails if and only if for some key both configs set it and one uses a string where the other uses an array (or, in [env], a table); it never fails for any other reason.", "quantifier": "every pair of configs", "why_tests_cant": "an iff over all pairs of configs and keys", "anchors": ["src/merge.rs", "src/gen/de.rs"]}
{"id": "C09", "title": "Tables are merged key by key", "statement": "After a successful load the keys of [alias], [env], [registries] and [target] are exactly the union of the keys in all files; a key present in only one file keeps exactly that file's entry, and the entry of one key never depends on the entries of other keys.", "quantifier": "every chain of config files, every key", "why_tests_cant": "unbounded key sets", "anchors": ["src/merge.rs: impl Merge for BTreeMap"]}
{"id": "C10", "title": "Merge is associative and an empty file is neutral", "statement": "Merging is associative (grouping the files of the chain differently gives the same config or fails in both cases) and a config file that sets nothing changes nothing wherever it appears in the chain.", "quantifier": "every triple of configs; every chain and every position of an empty file", "why_tests_cant": "universal algebraic law over all configs", "anchors": ["src/merge.rs", "src/de.rs: Config::_load_with_options"]}
{"id": "C11", "title": "Every value remembers the file it came from", "statement": "After loading the hierarchy, every value in the config (including each element of joined arrays and each field of nested tables) carries as its definition the path of the very file which contained that value.", "quantifier": "every chain of config files", "why_tests_cant": "every leaf of every config shape, after any number of merges", "anchors": ["src/value.rs: SetPath", "src/gen/de.rs", "src/de.rs: Config::_load_file"]}
{"id": "C12", "title": "A broken config file is never silently skipped", "statement": "If any file on the walk cannot be read or parsed, loading fails; if there is no config file at all, the empty config is returned; on success every file on the walk has been read and merged exactly once.", "quantifier": "every file system, every position of the broken file", "why_tests_cant": "unbounded chains", "anchors": ["src/de.rs: Config::_load_with_options, _load_file"]}
{"id": "C13", "title": "Program paths are resolved against the defining location", "statement": "A configured program (build.rustc, rustc-wrapper, rustc-workspace-wrapper, rustdoc, target linker, runner, doc.browser) that contains no `/` or `\\` is left as is (to be searched in PATH), an absolute one is left as is, and any other is joined to the directory that contains the `.cargo` directory of its file, or to the current directory if it came from an environment variable.  build.target-dir and build.dep-info-basedir are the same, but are joined even without separator.", "quantifier": "every value, every defining file found by the walk, every current directory", "why_tests_cant": "unbounded strings and paths; interplay of merge and definition", "anchors": ["src/value.rs: Value::resolve_as_program_path, resolve_as_path, Definition::root", "src/easy.rs: BuildConfig::from_unresolved, TargetConfig::from_unresolved, DocConfig::from_unresolved"]}
{"id": "C14", "title": "Resolving a config value never panics", "statement": "Turning a loaded config into a resolved Config never panics, whatever the directory layout: the base directory of each file produced by the walk exists.", "quantifier": "every current directory, CARGO_HOME, file system, and config content", "why_tests_cant": "panics hide in two nested unwraps reachable only for unusual CARGO_HOME values", "anchors": ["src/value.rs: Definition::root, root_opt", "src/resolve.rs: TargetTripleRef::new"]}
{"id": "C15", "title": "[env] values are resolved and flagged correctly", "statement": "In a resolved Config each [env] entry has `relative == false`; its value is the configured string, joined to the base directory of the defining file exactly when the entry is a table with `relative = true`; `force` is true exactly when the entry is a table with `force = true`.", "quantifier": "every [env] table and defining file", "why_tests_cant": "unbounded values and merges of partially specified tables", "anchors": ["src/easy.rs: EnvConfigValue::from_unresolved", "src/de.rs: EnvConfigValue::resolve"]}
{"id": "C16", "title": "Target strings: triples versus spec files", "statement": "A target string is treated as a target-spec file exactly if it contains `/` or `\\` or has the extension `json`; its triple is then the file stem, otherwise the string itself; the conversion from a string never panics.", "quantifier": "every string", "why_tests_cant": "unbounded strings; unwrap on file_stem", "anchors": ["src/resolve.rs: is_spec_path, TargetTripleRef::new"]}
{"id": "C17", "title": "Equal targets are interchangeable", "statement": "Two TargetTriples compare equal exactly if they are passed to rustc as the same `--target` string, equality/ordering/hash agree, and equal targets have the same triple name, however they were made (from a string, from build.target, by deserialization); so a cache keyed by the target never confuses two targets that resolve differently.", "quantifier": "every pair of constructible targets", "why_tests_cant": "unbounded strings and two ways of construction", "anchors": ["src/resolve.rs: TargetTripleRef PartialEq/Ord/Hash, cli_target"]}
{"id": "C18", "title": "Irrelevant environment variables have no influence", "statement": "Variables whose names do not start with CARGO or RUST and are not BROWSER, and variables with non-unicode names, never influence a Config; and every variable the resolution looks at passes that filter, so filtering loses nothing.  Two environments that agree on these variables give configs that no field and no later query can tell apart.", "quantifier": "every environment and every variable name", "why_tests_cant": "unbounded environments; includes dynamically built names", "anchors": ["src/resolve.rs: ResolveOptions::env, ResolveContext::env*", "src/env.rs", "src/de.rs: resolve_target"]}
{"id": "C19", "title": "The order of the environment does not matter", "statement": "The resolved config does not depend on the order in which the variables are stored or iterated (HashMap order): every order gives the same config, or every order fails.  Every later query on the config does the same, too.", "quantifier": "every environment and every permutation of it", "why_tests_cant": "hash iteration order is random per run", "anchors": ["src/env.rs: Config::apply_env"]}
{"id": "C20", "title": "Environment overrides files, with the documented priorities", "statement": "For each setting with environment variables, the resolved value is that of the highest-priority variable that is set (RUSTC before CARGO_BUILD_RUSTC, RUSTC_WRAPPER before CARGO_BUILD_RUSTC_WRAPPER, RUSTDOC before CARGO_BUILD_RUSTDOC, CARGO_TARGET_DIR before CARGO_BUILD_TARGET_DIR, CARGO_INCREMENTAL before CARGO_BUILD_INCREMENTAL, ...), else the merged file value; every other setting is left unchanged.", "quantifier": "every environment and every merged config", "why_tests_cant": "all combinations of variables set/unset over all settings", "anchors": ["src/env.rs: BuildConfig, HttpConfig, NetConfig, RegistryConfig, TermConfig, FutureIncompatReportConfig ::apply_env"]}
{"id": "C21", "title": "An empty wrapper variable disables the wrapper", "statement": "If RUSTC_WRAPPER is set to the empty string (or it is unset and CARGO_BUILD_RUSTC_WRAPPER is empty) no rustc wrapper is used whatever the files say; likewise for the workspace wrapper; and a wrapper coming from the environment is never the empty path.", "quantifier": "every environment and config", "why_tests_cant": "interaction of three sources", "anchors": ["src/env.rs: BuildConfig::apply_env"]}
{"id": "C22", "title": "rustflags sources: build level", "statement": "build.rustflags is CARGO_ENCODED_RUSTFLAGS split at 0x1f if set, else RUSTFLAGS split at spaces if set, else CARGO_BUILD_RUSTFLAGS split at spaces if set, else the merged file value; target-specific flags are suppressed exactly if one of the first two is set.  The same for rustdocflags with its own variables, independently.", "quantifier": "every environment and config", "why_tests_cant": "all combinations of sources; independence of the two families", "anchors": ["src/env.rs: BuildConfig::apply_env"]}
{"id": "C23", "title": "Malformed environment values are reported", "statement": "If a variable that is consulted (i.e. not shadowed by a higher-priority one) has a non-unicode value or a value that does not parse for its setting, loading fails; loading never fails because of a variable that is shadowed or not consulted.", "quantifier": "every environment", "why_tests_cant": "iff over all variables", "anchors": ["src/env.rs", "src/resolve.rs: ResolveContext::env, env_parse, env_redacted"]}
{"id": "C24", "title": "Every documented environment override is honoured", "statement": "Each setting that has an ApplyEnv implementation is overridden by its variable, in particular CARGO_CARGO_NEW_VCS overrides cargo-new.vcs.", "quantifier": "every environment and config", "why_tests_cant": "a missing call leaves everything compiling and no test covers it", "anchors": ["src/env.rs: CargoNewConfig::apply_env, Config::apply_env"]}
{"id": "C25", "title": "Applying the environment is idempotent and local", "statement": "Applying the environment a second time changes nothing; [env] and [target] are never modified by it; doc.browser from a file is preferred over BROWSER.", "quantifier": "every environment and config", "why_tests_cant": "universal over environments", "anchors": ["src/env.rs: Config::apply_env, DocConfig::apply_env"]}
{"id": "C26", "title": "Aliases and registries from the environment", "statement": "After loading, alias k is the words of CARGO_ALIAS_<k> if that variable is set and the file value otherwise; registry k's index/token are CARGO_REGISTRIES_<k>_INDEX/_TOKEN if set; crates-io's protocol is CARGO_REGISTRIES_CRATES_IO_PROTOCOL if set; no other entry of either table changes.", "quantifier": "every environment, config and key", "why_tests_cant": "unbounded set of dynamically named variables", "anchors": ["src/env.rs: Config::apply_env"]}
{"id": "C27", "title": "Linker selection", "statement": "The linker of a target is CARGO_TARGET_<TRIPLE>_LINKER if set, else target.<triple>.linker, else the linker of the first (in key order) matching target.'cfg(..)' table that has one, else none.", "quantifier": "every config, environment, target, compiler cfg set", "why_tests_cant": "unbounded number of cfg tables and targets", "anchors": ["src/de.rs: Config::resolve_target"]}
{"id": "C28", "title": "Runner selection", "statement": "The runner of a target is CARGO_TARGET_<TRIPLE>_RUNNER if set (an error if blank), else target.<triple>.runner, else the runner of the first matching cfg table that has one, else none.", "quantifier": "every config, environment, target, compiler cfg set", "why_tests_cant": "unbounded number of cfg tables and targets", "anchors": ["src/de.rs: Config::resolve_target"]}
{"id": "C29", "title": "rustflags of a target", "statement": "If CARGO_ENCODED_RUSTFLAGS or RUSTFLAGS is set, the flags of every target are exactly those; otherwise they are the concatenation target.<triple>.rustflags, CARGO_TARGET_<TRIPLE>_RUSTFLAGS, then the flags of each matching cfg table in key order, if any of these sources is present; otherwise build.rustflags.", "quantifier": "every config, environment, target, compiler cfg set", "why_tests_cant": "unbounded number of cfg tables; concatenation order", "anchors": ["src/de.rs: Config::resolve_target"]}
{"id": "C30", "title": "rustdocflags of a target", "statement": "As for rustflags with the rustdoc variables, but cfg tables contribute nothing.", "quantifier": "every config, environment, target", "why_tests_cant": "unbounded inputs", "anchors": ["src/de.rs: Config::resolve_target"]}
{"id": "C31", "title": "Invalid target queries fail", "statement": "Querying a target whose triple starts with `cfg(` fails; if any key of [target] starting with `cfg(` is not a well-formed cfg expression, every target query fails rather than ignoring the table.", "quantifier": "every config and target", "why_tests_cant": "unbounded malformed expressions", "anchors": ["src/de.rs: Config::resolve_target", "src/resolve.rs: ResolveContext::eval_cfg"]}
{"id": "C32", "title": "Environment names of targets", "statement": "The <TRIPLE> part of CARGO_TARGET_<TRIPLE>_* is the triple with `-` and `.` replaced by `_` and ASCII letters upper-cased, everything else unchanged; two triples share their variables exactly if they agree up to case and `-`/`.`/`_`. A query for a target depends on the variables CARGO_TARGET_* of exactly that name: its linker, runner, rustflags and rustdocflags are looked up under it and variables of other triples have no effect.", "quantifier": "every triple", "why_tests_cant": "unbounded strings", "anchors": ["src/de.rs: target_u_lower, target_u_upper"]}
{"id": "C33", "title": "Target queries are independent of history", "statement": "With the same compiler answers, target/linker/runner/rustflags/rustdocflags return for each target what a freshly loaded Config returns, whatever queries (for whatever targets, successful or failed) were made before, in whatever order; the five views agree with each other.", "quantifier": "every finite sequence of public queries", "why_tests_cant": "all histories; caches keyed by target", "anchors": ["src/easy.rs: Config::init_target_config, target, linker, runner, rustflags, rustdocflags", "src/resolve.rs: CfgMap::eval_cfg"]}
{"id": "C34", "title": "Processes are spawned only when needed", "statement": "Target queries spawn no process if [target] has no cfg( table; otherwise the compiler is asked for its cfgs at most once per distinct target per Config after the first success, always as `<rustc..> --print cfg --target <t>`.", "quantifier": "every config and every sequence of queries", "why_tests_cant": "all histories", "anchors": ["src/resolve.rs: CfgMap::eval_cfg, Cfg::from_rustc", "src/easy.rs: Config::init_target_config"]}
{"id": "C35", "title": "cfg expressions: exactly the grammar is accepted", "statement": "A `cfg(...)` key is accepted if and only if it is a single predicate of the cfg grammar (identifier, identifier = \"string\", all(..), any(..), not(..) with exactly one operand, with optional trailing comma).", "quantifier": "every string", "why_tests_cant": "unbounded nesting; the parser is a hand-written operator-precedence machine", "anchors": ["src/cfg_expr/expr/parser.rs: Expression::parse", "src/cfg_expr/expr/lexer.rs"]}
{"id": "C36", "title": "cfg expressions: evaluation follows the logic", "statement": "Evaluating an accepted expression gives the truth value of the formula: all is conjunction, any is disjunction, not is negation, with flags and key=value pairs looked up in the compiler's cfg set.", "quantifier": "every accepted expression and every cfg set", "why_tests_cant": "unbounded nesting and number of operands (operand counts are kept in a u8)", "anchors": ["src/cfg_expr/expr/mod.rs: Expression::eval", "src/cfg_expr/expr/parser.rs"]}
{"id": "C37", "title": "cfg expressions: no string makes the parser or evaluator panic", "statement": "Expression::parse returns Ok or Err for every string (including multi-byte characters at every position) and evaluating an accepted expression never panics: all byte slices are on character boundaries and the evaluation stack never underflows.", "quantifier": "every string and every cfg set", "why_tests_cant": "unbounded strings; slicing by byte offsets", "anchors": ["src/cfg_expr/expr/lexer.rs: Lexer::next", "src/cfg_expr/expr/parser.rs", "src/cfg_expr/expr/mod.rs"]}
{"id": "C38", "title": "cfg expressions: whitespace is irrelevant", "statement": "Inserting or removing whitespace between tokens of an expression changes neither acceptance nor value (identifiers and strings are kept verbatim).", "quantifier": "every expression and every placement of whitespace", "why_tests_cant": "unbounded", "anchors": ["src/cfg_expr/expr/lexer.rs"]}
{"id": "C39", "title": "cfg expressions: error locations are inside the expression", "statement": "Every parse error carries the original text and a span with start <= end <= length of the text, so displaying it never fails.", "quantifier": "every rejected string", "why_tests_cant": "unbounded strings", "anchors": ["src/cfg_expr/expr/lexer.rs", "src/cfg_expr/expr/parser.rs", "src/cfg_expr/error.rs"]}
{"id": "C40", "title": "Build-only cfgs are always false", "statement": "For every target `test`, `debug_assertions`, `proc_macro` and `feature = \"..\"` evaluate to false even if rustc reports them; every other flag is true exactly if rustc printed it, and every other key=\"value\" with non-empty value is true exactly if rustc printed it.", "quantifier": "every rustc output and predicate", "why_tests_cant": "unbounded outputs", "anchors": ["src/resolve.rs: CfgMap::eval_cfg, Cfg::parse"]}
{"id": "C41", "title": "Three-valued evaluation is sound", "statement": "Evaluating with unknown (None) predicates returns Some(b) only if every way of deciding the unknown predicates evaluates to b.", "quantifier": "every accepted expression and every partial assignment", "why_tests_cant": "exponentially many completions", "anchors": ["src/cfg_expr/expr/mod.rs: impl Logic for Option<bool>"]}
{"id": "C42", "title": "rustc --print cfg output is read faithfully", "statement": "For every list of flags and key=\"value\" pairs printed one per line, the parsed set contains exactly those flags and pairs (pairs with empty value are dropped); malformed lines are skipped without affecting other lines.", "quantifier": "every rustc output", "why_tests_cant": "unbounded outputs", "anchors": ["src/resolve.rs: Cfg::parse"]}
{"id": "C43", "title": "Version output parsing", "statement": "From any verbose version text the version is taken from the first `release: ` line: MAJOR.MINOR[.PATCH][-CHANNEL], each number a u32, nightly exactly for channel nightly or dev; anything else is an error, never a wrong version; cargo additionally needs PATCH.  `version.major_minor() < (a, b)` holds exactly for versions before a.b.", "quantifier": "every process output", "why_tests_cant": "unbounded texts and 32-bit numbers", "anchors": ["src/resolve.rs: parse_version, rustc_version, cargo_version", "src/resolve.rs: RustcVersion::major_minor, CargoVersion::major_minor"]}
{"id": "C44", "title": "Host triple and versions are stable", "statement": "Once host_triple (or rustc_version, cargo_version) has returned Ok(x), every later call on that Config returns Ok(x), even if the tools change or disappear in between.", "quantifier": "every sequence of calls and every sequence of process outcomes", "why_tests_cant": "all histories and all tool behaviours", "anchors": ["src/resolve.rs: ResolveContext::host_triple, rustc_version, cargo_version"]}
{"id": "C45", "title": "Where the host triple comes from", "statement": "host_triple is the ResolveOptions value if given; else the `host: ` line of `cargo -vV` if cargo runs and reports a version and host; else that of `rustc -vV`; else an error.", "quantifier": "every outcome of the two tools", "why_tests_cant": "all process outcomes", "anchors": ["src/resolve.rs: ResolveContext::host_triple, host_triple, verbose_version"]}
{"id": "C46", "title": "Repeating a failed version query never panics", "statement": "host_triple, rustc_version and cargo_version return Ok or Err on every call, also after earlier failures, also in builds with debug assertions.", "quantifier": "every sequence of calls and process outcomes", "why_tests_cant": "needs a sequence of failing calls; all histories", "anchors": ["src/resolve.rs: ResolveContext::host_triple (debug_assert)"]}
{"id": "C47", "title": "How rustc is invoked", "statement": "Config::rustc is the ResolveOptions value if given, else [wrapper] [workspace wrapper] rustc, in that order, the first as program and the rest as arguments, where rustc is build.rustc or the rustc next to cargo or `rustc`; it never changes once returned.", "quantifier": "every config", "why_tests_cant": "all combinations", "anchors": ["src/resolve.rs: ResolveContext::rustc, rustc_path"]}
{"id": "C48", "title": "rustc_version asks the current rustc", "statement": "rustc_version reports the version of the compiler returned by Config::rustc (leaving out the workspace wrapper).", "quantifier": "every config and ResolveOptions", "why_tests_cant": "all combinations of options and config", "anchors": ["src/resolve.rs: ResolveContext::rustc_for_version, rustc_version", "src/easy.rs: Config::rustc_version"]}
{"id": "C49", "title": "Which targets are built", "statement": "build_target_for_config returns the given targets if any, else build.target (which CARGO_BUILD_TARGET replaces as a single target), else the host triple, so never an empty list; build_target_for_cli returns the given strings unchanged, else the configured targets as they must be passed to `--target`, else nothing and never runs a process.", "quantifier": "every target list and config", "why_tests_cant": "all combinations of sources", "anchors": ["src/easy.rs: Config::build_target_for_config, build_target_for_cli"]}
{"id": "C50", "title": "Encoded flags round-trip", "statement": "If Flags::encode succeeds, Flags::from_encoded of the result is the original flags; encode fails exactly if some flag contains 0x1f. The error names the separator that no flag may contain.", "quantifier": "every list of strings", "why_tests_cant": "unbounded lists; empty flags at the edges", "anchors": ["src/easy.rs: Flags::encode, from_encoded, encode_internal", "src/de.rs: split_encoded"]}
{"id": "C51", "title": "Space-separated flags round-trip", "statement": "Flags::from_space_separated never yields empty or untrimmed flags or flags with spaces; encoding its result with encode_space_separated succeeds and re-parses to the same flags; encode_space_separated fails exactly if a flag contains a space; for flags that are non-empty, trimmed and space-free the round trip is the identity. The error names the separator that no flag may contain.", "quantifier": "every string and every list of strings", "why_tests_cant": "unbounded; Unicode whitespace", "anchors": ["src/easy.rs: Flags::encode_space_separated, from_space_separated", "src/de.rs: split_space_separated"]}
{"id": "C52", "title": "Serialization round trip", "statement": "Serializing a de::Config that was deserialized from TOML and deserializing the result gives the same config (up to definitions and the string/array spelling of flags); nothing that is set is lost and nothing is invented.", "quantifier": "every config obtained by deserialization", "why_tests_cant": "unbounded tables; per-field skip conditions", "anchors": ["src/de.rs: Serialize/Deserialize impls", "src/gen/is_none.rs"]}
{"id": "C53", "title": "Sections are omitted exactly when empty", "statement": "When a config is written, a section is present exactly if one of its keys is set, for unresolved and for resolved configs (where [target] is present exactly if a target has been asked for); a config serializes to the empty document exactly if it sets nothing.", "quantifier": "every config", "why_tests_cant": "per-field conjunctions that a new field can be missing from", "anchors": ["src/gen/is_none.rs", "src/de.rs: skip_serializing_if", "src/easy.rs: skip_serializing_if"]}
{"id": "C54", "title": "Enum spellings", "statement": "For vcs, color, when, frequency and protocol, FromStr accepts exactly the documented spellings, and as_str / serialization and FromStr / deserialization are inverse to each other.", "quantifier": "every string and every variant", "why_tests_cant": "for all strings: no other spelling is accepted", "anchors": ["src/de.rs: VersionControlSoftware, Color, When, Frequency, RegistriesProtocol"]}
{"id": "C55", "title": "Tokens are never shown by Debug or error messages", "statement": "The Debug output of a registry table and of the merge errors does not depend on the token's value, and an error about a token variable does not depend on its bytes; so no information on the token leaks.", "quantifier": "every pair of configs/environments differing only in token values", "why_tests_cant": "non-interference is a relation between all pairs of runs", "anchors": ["src/de.rs: Debug for RegistriesConfigValue, RegistryConfig", "src/easy.rs: Debug impls", "src/error.rs: env_not_unicode_redacted", "src/merge.rs: BTreeMap merge error"]}
{"id": "C56", "title": "Executables with arguments need a program", "statement": "A runner or browser value, as a string or as an array, is rejected if it has no word, and otherwise its program is its first word/element and its arguments are the rest in order.", "quantifier": "every string and array", "why_tests_cant": "unbounded", "anchors": ["src/de.rs: PathAndArgs::from_string, from_array, Deserialize"]}
{"id": "C57", "title": "End-to-end precedence", "statement": "For a Config returned by load_with_options every setting has the value: consulted environment variable, else nearest file on the walk, else unset, with paths resolved against where that value came from.", "quantifier": "every current directory, file system, environment and options", "why_tests_cant": "composition of walk, parse, merge, environment and resolution", "anchors": ["src/easy.rs: Config::load_with_options, from_unresolved"]}
{"id": "C58", "title": "Definition equality", "statement": "Comparing definitions is an equivalence relation that only looks at the kind of location (file, environment, command line), so values compare equal independent of which file they are from.", "quantifier": "every triple of definitions", "why_tests_cant": "universal law", "anchors": ["src/value.rs: PartialEq for Definition"]}
{"id": "C59", "title": "Process output is only stripped of trailing line ends", "statement": "The text used from a successful process is its standard output without its trailing line feeds and carriage returns and otherwise unchanged; a process that fails to start, exits with failure or prints non-UTF-8 is an error.", "quantifier": "every process outcome", "why_tests_cant": "unbounded outputs", "anchors": ["src/process.rs: ProcessBuilder::read, run_with_output"]}
{"id": "C60", "title": "Which cargo is used", "statement": "Config::cargo is the ResolveOptions::cargo value if given, else the value of the variable CARGO (of ResolveOptions::env if given, else of the process), else `cargo`.", "quantifier": "every options value, process environment and file system", "why_tests_cant": "interplay of options and environment for all values", "anchors": ["src/resolve.rs: ResolveOptions::into_context", "src/easy.rs: Config::cargo"]}
{"id": "C61", "title": "cargo_version asks that cargo", "statement": "Whatever was queried before, a version returned by cargo_version was reported by `<Config::cargo> -vV`; if the tools do not change, a version is returned exactly if that command reports one.", "quantifier": "every sequence of earlier queries and every behaviour of the tools", "why_tests_cant": "state left behind by earlier queries, unbounded sequences", "anchors": ["src/resolve.rs: ResolveContext::cargo_version, host_triple"]}
{"id": "C62", "title": "Which documents are accepted", "statement": "A config document (TOML) is accepted exactly if it is a table whose sections, and entries of [registries] and [target], are tables, whose [env] entries are strings or have a value, and in which every known setting that is present has a value of its documented type: integers of 32 bits, booleans, the documented words, strings, strings or arrays of strings, and non-blank commands. Unknown keys are ignored, and everything else gives an error, never a panic.", "quantifier": "every TOML document", "why_tests_cant": "unbounded space of documents; a single wrongly typed field among dozens must be rejected, and nothing else", "anchors": ["src/de.rs: derived Deserialize of Config and its sections", "src/de.rs: PathAndArgs, Flags, StringList, StringOrArray, EnvConfigValue"]}
{"id": "C63", "title": "Where every setting of a target comes from", "statement": "After Config::load, the linker, runner, rustflags and rustdocflags returned for a target are determined by the config files found and the environment: linker and runner are those of CARGO_TARGET_<TRIPLE>_*, else of the table of the triple, else of the first table cfg(..), in the order of the keys, that is true for the cfg set printed by the compiler for this target; rustflags are all of these joined, else build.rustflags, unless CARGO_ENCODED_RUSTFLAGS or RUSTFLAGS is set; rustdocflags likewise without cfg tables. Tables with the same key in several files are combined first, nearest file preferred and arrays joined; program paths are relative to the file they were written in.", "quantifier": "every file system, set of TOML documents, environment, options, target and compiler output", "why_tests_cant": "the composition of search, parsing, merging, environment, cfg evaluation and path resolution has unboundedly many inputs", "anchors": ["src/easy.rs: Config::load_with_options, target, linker, runner, rustflags, rustdocflags", "src/de.rs: Config::resolve_target"]}
{"id": "C64", "title": "When a target query succeeds", "statement": "A first query for a target after Config::load succeeds exactly if the target does not start with `cfg(`, its CARGO_TARGET_<TRIPLE>_* variables are valid text and its runner variable is not blank, all keys cfg(..) of the files are accepted, and, if there is such a key, the compiler answers `--print cfg --target`. Otherwise it returns an error; it does not panic unless the cfg parser does.", "quantifier": "every loaded configuration, target, environment and behaviour of the compiler", "why_tests_cant": "the absence of other errors and panics is a statement about all configurations", "anchors": ["src/easy.rs: Config::target, init_target_config", "src/de.rs: Config::resolve_target"]}
{"id": "C65", "title": "What a resolved config is written as, and loading it again", "statement": "Serializing easy::Config writes every setting at its place (programs and directories as resolved, lists and commands as arrays, targets as passed to the compiler) and omits what is not set. [target] contains exactly the targets that were asked for successfully so far, each with the settings returned; a config that was just loaded is written without [target]. If the written document is the only config file of another load without environment variables, that load succeeds with the same settings, wherever the file is, and every target asked for before by its triple has the same linker, runner, rustflags and rustdocflags.", "quantifier": "every file system, set of TOML documents, environment, options, sequence of queries, compiler, and every place of the second load", "why_tests_cant": "depends on every possible combination of settings, on the history of queries, and on all current directories; samples check few keys", "anchors": ["src/easy.rs: Serialize for Config, Flags, StringList, PathAndArgs, EnvConfigValue", "src/resolve.rs: Serialize for TargetTriple", "src/gen/is_none.rs", "src/easy.rs: Config::load_with_options"]}
{"id": "C66", "title": "When loading succeeds, fails and panics", "statement": "Config::load_with_options succeeds exactly if every config file that applies can be read as a TOML document; every document is a config; no two of them write the same list, command or [env] entry once as a string and once otherwise; no environment variable that counts is malformed; and all paths can be located. A relative path cannot be located if it is in a config file with fewer than two path components after the root, and a target-spec file in build.target cannot if it does not end in a file name. If only the last condition fails, loading panics; if another fails, it returns an error. If CARGO_HOME is neither empty nor the root directory, only a string of build.target can make loading panic.", "quantifier": "every file system, set of TOML documents, environment, options and current directory", "why_tests_cant": "that there is no other error and no other panic is a statement about all inputs", "anchors": ["src/easy.rs: Config::load_with_options, from_unresolved", "src/de.rs: Config::_load_with_options, apply_env", "src/value.rs: Definition::root", "src/resolve.rs: TargetTripleRef::new"]}
{"id": "C67", "title": "What the error of a failed load says", "statement": "If Config::load_with_options returns an error, its message names the first config file that applies and is not in order (it cannot be read, is not TOML, is not a config, or writes a setting differently from a nearer file), in the order of precedence and whatever else is wrong; if all config files are in order, the message names a malformed environment variable. If a file writes settings differently from a nearer one, the cause of the error tells the first of them (in the order of the sections and of the keys) by its key (for [alias], [env] and [target]) and the two ways of writing.", "quantifier": "every file system, set of TOML documents, environment, options and current directory", "why_tests_cant": "which of several defects is reported, and that every defect is reported by name, is a statement about all combinations of defects", "anchors": ["src/de.rs: Config::_load_with_options, _load_file, apply_env", "src/env.rs", "src/error.rs: Display and source for Error"]}
{"id": "C68", "title": "Errors as io::Error", "statement": "Converting an Error to io::Error keeps the message and the source. The kind of the io::Error of a failed load is that of the operating system's error if the first config file not in order cannot be read, InvalidData if it is not TOML or not a config, and Other for all other reasons.", "quantifier": "every error; every file system, set of TOML documents, environment, options and current directory", "why_tests_cant": "the kind depends on the innermost cause of whatever error comes first", "anchors": ["src/error.rs: From<Error> for io::Error", "src/de.rs: Config::_load_with_options, _load_file"]}
{"id": "C69", "title": "The error of a failed query names its cause", "statement": "If host_triple, rustc_version or cargo_version fails, the error is about the last command that was run: it shows the command line and either that the command could not be started (with the operating system's error as source), or its exit status with its standard output and standard error as far as they are text and not blank, or that its output is not text, or the output in which no version or host was found. For host_triple this is the compiler's command even if cargo failed first. If a query for a target fails, the error names the target that is not a triple, the environment variable that is not usable, the cfg(..) key that is not accepted, or the failed command `rustc --print cfg --target <target>`. No other query fails.", "quantifier": "every loaded configuration, state, environment and behaviour of the tools", "why_tests_cant": "that every failure is reported in one of these ways is a statement about all executions", "anchors": ["src/process.rs: ProcessBuilder::run_with_output, read, Display, process_error", "src/resolve.rs: verbose_version, rustc_version, cargo_version, host_triple", "src/de.rs: Config::resolve_target"]}
{"id": "C70", "title": "Exactly when a query for a target succeeds, fails and panics", "statement": "For a freshly loaded configuration, a query for a target fails exactly if the target looks like cfg(..), one of its four environment variables is not text or the runner's is blank, a cfg(..) key of the files is not accepted (the error being that of the first such key in order), or the compiler does not answer after the first cfg(..) key was accepted. It panics exactly if nothing of this happened but the linker or the runner chosen is a relative path from a file whose directory has no parent, or if the parser panics on a cfg(..) key. Otherwise it succeeds.", "quantifier": "every process environment, file system, content of the files, target, compiler behaviour and every value of CARGO_HOME", "why_tests_cant": "an exact characterisation over all configurations, including which of several defects decides", "anchors": ["src/easy.rs: Config::target, init_target_config, TargetConfig::from_unresolved", "src/de.rs: Config::resolve_target", "src/resolve.rs: ResolveContext::eval_cfg, resolve_as_program_path"]}
{"id": "C71", "title": "cfg expressions: what the error of a rejected expression says", "statement": "The error of a rejected expression is about the first thing that is wrong with the text: the first token that cannot follow those before it, a character that does not begin a token, a string, function or pair that does not end, a parenthesis too many, a not(..) without exactly one operand, or a text with no formula or with several bare predicates. The position in the error is the place of that thing, the reason is that reason, and \"expected one of ..\" lists exactly the tokens that could be there. The message shows the text with marks below that place and the reason in words.", "quantifier": "every text, with and without overflow checks", "why_tests_cant": "the place of the first defect over all texts needs the language of prefixes of the grammar; samples show single messages", "anchors": ["src/cfg_expr/expr/parser.rs: Expression::parse, token_err!", "src/cfg_expr/expr/lexer.rs: Lexer::next", "src/cfg_expr/error.rs: Display for ParseError, Display for Reason"]}
{"id": "C72", "title": "The ways to load agree, and only config files matter", "statement": "Walk::new produces exactly the config files that apply in a directory for the CARGO_HOME of the process. The raw config (de::Config::load_with_cwd) is made of these files and no others: none gives the empty config, a single one what load_file gives. The resolved config (Config::load_with_cwd) reads the same files: a problem with them is reported in the same way by both, and the resolved config depends on the files only through the raw one. Loading in the current directory is loading in that directory; if it cannot be determined, nothing is read and the error says so. Creating, removing or changing any other file, or a config.toml next to a config, does not change the outcome.", "quantifier": "every directory, process environment, file system, file content and options", "why_tests_cant": "independence of all other files and agreement of the entry points are statements over all file systems", "anchors": ["src/de.rs: Config::load, load_with_cwd, load_with_options, load_file", "src/easy.rs: Config::load, load_with_cwd, load_with_options", "src/walk.rs: Walk::new, Walk::with_cargo_home"]}
{"id": "C73", "title": "Values made in code equal those written in config files", "statement": "A command made with PathAndArgs::new, arg and args runs the path with all arguments in the order in which they were passed. Flags that are pushed come after the others in order, and can be encoded and read again. Flags and lists made in code from a string or an array are the same as those of a config file in which the setting has that string or array, and as those of the variables: from_encoded for CARGO_ENCODED_RUSTFLAGS, from_space_separated for RUSTFLAGS.", "quantifier": "every sequence of calls, string, array, and every otherwise arbitrary config, environment and file system", "why_tests_cant": "sequences of calls and texts are unbounded; tests show single ones", "anchors": ["src/easy.rs: PathAndArgs::new, arg, args, From<PathAndArgs> for Command, Flags::push, from_encoded, from_space_separated, From<..> for Flags, From<..> for StringList"]}
{"id": "C74", "title": "The caches of a config are never in use when they are used", "statement": "No query on a Config panics because a RefCell is already borrowed or a OnceCell is filled while it is being initialised, also if the caller's conversions of the arguments (Into, IntoIterator, AsRef) make further queries on the same Config, to any depth. After every query, successful, failed or panicking, nothing is borrowed, so that the Config can be queried again, cloned and serialized. Nested queries have the outcome of the queries made one after the other, the innermost first.", "quantifier": "every config, query, tree of nested queries, state of the caches and behaviour of the tools", "why_tests_cant": "a borrow that is still held on one path (an error, a panic, a particular state of the caches) shows only if that path is followed by a particular further use", "anchors": ["src/easy.rs: init_target_config, target, linker, runner, rustflags, rustdocflags, ref_cell_bree_map_is_empty", "src/resolve.rs: rustc, host_triple, rustc_version, cargo_version, eval_cfg"]}
{"id": "C75", "title": "Displayed locations are unambiguous", "statement": "The text shown for where a value comes from (Display of Definition) is, after loading from an absolute directory, exactly the path of a config file which was read and has this value at this place; texts for different files or variables are different.", "quantifier": "every directory, file system and setting; every pair of files with absolute paths and variables", "why_tests_cant": "universal law over all paths and names; every leaf of every config", "anchors": ["src/value.rs: Display for Definition", "src/value.rs: SetPath", "src/de.rs: Config::load_with_cwd"]}
{"id": "C76", "title": "Loading while files change", "statement": "While a config is loaded, config files may be created, changed or removed at any time. The load looks for each candidate file at most once, in the order of precedence (config before config.toml in each directory), reads a file at once when it has found it, never reads a file twice, and looks at nothing more after a failure. Its outcome is that of a load from some fixed file system each of whose answers was true at some moment during the load, so that all the other properties of loads hold; it need not be the outcome for the files of any one moment.", "quantifier": "every sequence of changes of the file system between its accesses, every directory and home directory, every parser, every options", "why_tests_cant": "schedules of concurrent changes are unbounded; a test fixes one set of files before the load", "anchors": ["src/walk.rs: Iterator for WalkInner", "src/walk.rs: config_path", "src/de.rs: Config::_load_with_options", "src/de.rs: Config::_load_file", "src/easy.rs: Config::load_with_options"]}
{"id": "C77", "title": "The layout of a config file does not matter", "statement": "Whether a document is accepted as a config, and which config it is, depends only on what it has at the places the library knows: the sections, the entries of the tables with arbitrary keys, and the settings. The order of keys in any table has no influence, and neither have keys the library does not know, at any depth and with any values. Replacing config files by others that say the same changes nothing about a load or about anything asked of the loaded config later.", "quantifier": "every pair of TOML documents with distinct keys, every hierarchy of files, every environment and options", "why_tests_cant": "all orders of all documents and all unknown keys with all values; a test compares a few layouts", "anchors": ["src/de.rs: derived Deserialize of Config and of the sections", "src/de.rs: Config::_load_file", "src/de.rs: Config::_load_with_options", "src/easy.rs: Config::load_with_options"]}
{"id": "C78", "title": "What a further config file can and cannot change", "statement": "If a config file is added to a hierarchy (or, read the other way, removed) and hides no other one, the other files are visited in the same order; a single value stays the same or is now that of the new file, and stays the same if a nearer file sets it; a list written as arrays loses nothing and keeps its order, only elements of the new file are added; lists written as strings stay or are replaced as a whole by that of the new file; no table entry is lost. Removing a file cannot make a load fail that succeeds with it. (Only a new config beside a config.toml hides what is set there.)", "quantifier": "every hierarchy, every new file at every place, every setting", "why_tests_cant": "a relation between two loads for every pair of hierarchies; tests compare single cases", "anchors": ["src/de.rs: Config::_load_with_options", "src/walk.rs: WalkInner", "src/merge.rs: Merge", "src/gen/de.rs"]}
{"id": "C79", "title": "How many processes are started", "statement": "All queries made with a config during its life together start at most 8 processes, one for each different target asked about and three for each query that fails, however the tools behave. If cargo tells its version and host, or the host triple was given, the constant is 2 and a failed query costs one.", "quantifier": "every sequence of queries (also with the public fields changed in between), every behaviour of the tools over time, every state of the caches", "why_tests_cant": "a bound on effects over all histories of queries and all behaviours of external programs; tests count processes in one history", "anchors": ["src/resolve.rs: ResolveContext::host_triple, rustc_version, cargo_version, eval_cfg", "src/easy.rs: Config::init_target_config, build_target_for_config", "src/process.rs"]}
{"id": "C80", "title": "Exactly the documented environment variables have an influence", "statement": "Exactly these environment variables can change the outcome of Config::load_with_options or of a later query: 43 fixed names (such as RUSTC, CARGO_BUILD_JOBS, CARGO, BROWSER), CARGO_ALIAS_<name>, CARGO_REGISTRIES_<name>_INDEX and _TOKEN, and CARGO_TARGET_<TRIPLE>_LINKER, _RUNNER, _RUSTFLAGS and _RUSTDOCFLAGS. If two lists of variables passed to ResolveOptions::env agree on these, both loads fail or both return configs with equal fields on which every query behaves the same. Conversely, for each of these names there are two successful loads that differ in this variable only and whose results can be told apart by a field or a query. Without ResolveOptions::env the same holds for the environment of the process, together with CARGO_HOME and the home directory.", "quantifier": "for all lists of variables (any names, valid Unicode or not), all file systems, documents, current directories, options, processes, and all later queries in all worlds and states; and for every name, known or not", "why_tests_cant": "Absence of influence is a statement about infinitely many names and values in all situations; tests set a handful of variables. That each listed name matters, including the infinite families with a name or triple in the middle, is equally beyond samples.", "anchors": ["src/env.rs: Config::apply_env and the implementations of ApplyEnv", "src/de.rs: Config::resolve_target", "src/resolve.rs: ResolveOptions::env, into_context", "src/walk.rs: cargo_home_with_cwd"]}
{"id": "C81", "title": "The place of the config files matters only for relative paths", "statement": "Let the same files (same contents, in the same order of nearness) apply at two places, with the same environment and the same options except for the Cargo home, which is neither empty nor the root directory. Then `Config::load_with_options` either succeeds at both places, or fails at both, or panics at both. If it succeeds, each public setting is the same, except that a path may be the same relative path joined to corresponding directories (the two current directories, or the directories to which two corresponding files belong). Each query, asked after the same earlier queries, has the same outcome in this sense, and runs the same commands in this sense, provided that the tools do the same for commands that agree in this sense.", "quantifier": "for all pairs of places, file systems, environments, options, parsed contents, and histories of queries", "why_tests_cant": "A test moves one config to one other place; that no setting, no merge, no error and no query depends on where the files are, for any contents and any number of files, is a statement about pairs of executions.", "anchors": ["src/de.rs:136-172", "src/value.rs:33-85", "src/merge.rs", "src/env.rs:31-105", "src/easy.rs:138-187", "src/easy.rs:313-416", "src/resolve.rs:162-332", "src/resolve.rs:447-474"]}
{"id": "C82", "title": "Settings do not interfere with each other", "statement": "Let two calls of `Config::load_with_options` succeed. If the same config files mention a setting, in the same order and with the same value, and the environment variables of that setting have the same values, then the setting of the two resolved configs is the same (for settings holding paths: if the current directory is the same), whatever else differs: other settings in the same files, further files that do not mention it, other variables, other options. If the two calls are made with the same options in the same process and directory, and the files say the same in `[build]` and `[target]`, then every query has the same outcome and starts the same processes; a query for one target does not depend on the tables of other targets.", "quantifier": "for all pairs of successful loads, all settings, all queries, all states of the caches and all behaviours of the tools", "why_tests_cant": "That no setting leaks into another one is a statement about pairs of executions and all pairs of settings; a test compares one config before and after one edit.", "anchors": ["src/de.rs:136-172", "src/de.rs:190-312", "src/merge.rs", "src/env.rs:31-262", "src/easy.rs:146-187", "src/easy.rs:313-416"]}
{"id": "C83", "title": "Which environment variable an error is about, and why", "statement": "If all config files are in order but environment variables are malformed, the error of `Config::load_with_options` is about a malformed variable with a free name (`CARGO_ALIAS_*`, `CARGO_REGISTRIES_*_INDEX`, `CARGO_REGISTRIES_*_TOKEN`, `CARGO_REGISTRIES_CRATES_IO_PROTOCOL`) if there is one; otherwise it is about the first malformed one in a fixed order of the settings (build, doc, future-incompat-report, http, net, registry, term), independent of the order of the environment; and if there is neither, loading is not an error. An error about a variable has a source that tells why: the value is not Unicode (with the raw value, but without it for tokens), it is not one of the accepted words (with the words and the value), it is not a boolean, or it is not a number in range.", "quantifier": "for all environments, options, directory trees and contents of config files", "why_tests_cant": "The order matters for each pair of about thirty settings and for all combinations of missing and malformed variables and spellings; a test sets one variable.", "anchors": ["src/env.rs:31-393", "src/resolve.rs:239-268", "src/error.rs:42-55"]}
{"id": "C84", "title": "What the example `get` prints", "statement": "`examples/get.rs --merged=yes` prints, if the config files that apply are in order, exactly the settings of all files taken together: single values from the nearest file that has them, lists and commands joined, flags as arrays, each on one line with its place, in the order of the places segment by segment; with `--format=json` one document with the same settings; otherwise nothing is printed and there is an error. `--merged=no` prints for each file, nearest first, its name and its own settings, also if the files disagree in spelling, and stops at the first file that is not in order with an error about it after printing the ones before; it is refused with `--format=json`. Environment variables have no influence on what is printed except that `CARGO_HOME` is a place to look; those that are Unicode and begin with `CARGO_` are listed. If no key has a dot in it the lines determine all settings, otherwise they may be ambiguous. Each option may be given once, in any order.", "quantifier": "for all directory trees, contents of config files, environments, working directories and command lines", "why_tests_cant": "The output depends on all files, on every combination of settings and on arbitrary keys of `[env]`, `[alias]`, `[registries]` and `[target]`; the example has no tests at all.", "anchors": ["examples/get.rs:35-108", "examples/get.rs:122-175", "src/de.rs:119-172"]}
{"id": "C85", "title": "The first malformed variable of a target decides", "statement": "A query about a target that has not been answered yet fails before anything else with an error about the first malformed one of the variables `CARGO_TARGET_<triple>_LINKER`, `_RUNNER`, `_RUSTFLAGS`, `_RUSTDOCFLAGS`, in this order; a runner that is Unicode but blank counts as malformed, other variables may be blank. The cause of the error has the value if it is not Unicode. No tool is run, nothing is remembered, and neither the files nor the compiler have any influence on it; the five queries about the target fail alike, whichever setting is asked for. Only a target whose name begins with `cfg(` is refused before that.", "quantifier": "for all targets, environments, directory trees, contents of config files, tools and states in which the target has not been answered", "why_tests_cant": "All combinations of malformed variables, malformed cfg keys and failing tools compete for being reported; tests use a single defect each.", "anchors": ["src/de.rs:200-243", "src/easy.rs:313-369", "src/resolve.rs:273-281"]}
{"id": "C86", "title": "Loading in a subdirectory", "statement": "Let a directory be below another one, and the Cargo home not be the `.cargo` of a directory in between. Then the config files visited in the lower directory are those of the directories in between, nearest first, followed by exactly the ones visited in the upper directory. What can be loaded in the lower directory can be loaded in the upper one; a single value is that of the nearest file in between that has it, else that of the upper directory; lists written as arrays keep what they have in the upper directory and only elements of files in between are appended (for commands: prepended); lists written as strings stay or are replaced as a whole; no table entry is lost. If there is no config file in between, loading gives the same configuration or the same error, resolved settings and answers to queries are the same, except that relative paths from environment variables are joined to the respective directory. (If the Cargo home is in between, its file is the farthest for the upper directory but not for the lower one.)", "quantifier": "for all pairs of directories of which one is below the other, all directory trees, contents of config files, environments, options and histories of queries", "why_tests_cant": "Compares two loads over all directory trees and all contents; a test fixes a tree and two directories in it.", "anchors": ["src/walk.rs:85-97", "src/de.rs:135-159", "src/value.rs:67-116"]}
{"id": "C87", "title": "Only the cfg tables that are true matter", "statement": "Let two successful calls of `Config::load_with_options` be made in the same process and directory with the same options, the files of both saying the same in `[build]` and in the table of the target. If the tables `[target.'cfg(..)']` that are true for the target have the same contents in the same order, then `target(..)` gives the same answer whenever both queries succeed, however the keys are written, whatever further tables there are that are false, and whatever else the compiler prints. Leaving out tables that are false never makes a query fail or changes its answer, and starts no other processes.", "quantifier": "for all pairs of successful loads, all targets, all cfg keys and tables, and all behaviours of the tools", "why_tests_cant": "relates all pairs of configurations whose tables agree after evaluation by arbitrary compiler output", "anchors": ["src/de.rs:190-312", "src/resolve.rs:283-332", "src/easy.rs:313-369"]}
{"id": "C88", "title": "Resolved paths do not depend on the working directory", "statement": "If a config is loaded in an absolute directory (and CARGO_HOME, if any, is an absolute path other than the root directory), a caller may use every resolved path from any other working directory: build.rustc, build.rustc-wrapper, build.rustc-workspace-wrapper, build.rustdoc, the program of doc.browser, and the linker and the program of the runner of every target are absolute or plain names for PATH; build.target-dir, build.dep-info-basedir and the spec files of build.target are absolute; no entry of [env] is left to be joined by the caller, and the values of the entries that were said to be relative are absolute. The same holds for every word of Config::rustc if no compiler was given as an option and CARGO is absolute or unset. These answers are independent of what was asked before.", "quantifier": "all file systems, TOML documents, environments, options, sequences of queries, tool behaviours and targets", "why_tests_cant": "A test sees the paths of some files; that no combination of file location, variable and spelling leaves a path relative to the process needs all of them.", "anchors": ["src/value.rs:33-95", "src/resolve.rs:162-188", "src/resolve.rs:637-650"]}
{"id": "C89", "title": "How the directory is written does not matter", "statement": "If the directory passed to Config::load_with_cwd is written in another way that is equal as a Path (/w/p, /w/p/, /w/./p, /w//p), in a file system where such paths name the same file, and the Cargo home is neither empty nor the root directory, then the same config files are found, in the same order and with CARGO_HOME recognised as one of the searched directories in both cases or in neither; loading succeeds in both cases or fails in both; and all settings, all answers to queries in any sequence and all commands that are run are the same, except that paths may differ in how they are written, while being equal as Paths. The Cargo home found from CARGO_HOME or the home directory is then the same too, and may itself be written differently.", "quantifier": "all file systems in which only the components of a path count, file contents, environments, options, sequences of queries, tool behaviours, and all pairs of equal directories", "why_tests_cant": "There are infinitely many ways to write a directory; a test tries one or two and cannot see that no comparison of paths, no parent step and no join depends on the way.", "anchors": ["src/walk.rs:23-98", "src/resolve.rs:110-135", "src/value.rs:145-181", "src/easy.rs:185-260"]}
{"id": "C90", "title": "The two names of a config file are interchangeable", "statement": "Renaming config files between .cargo/config and .cargo/config.toml (so that every searched directory has a config file with the same contents before and after, or none before and after) changes nothing a user of the resolved Config can see: loading succeeds before if and only if it succeeds after, all public fields are equal, all answers to all sequences of queries are equal, and the same commands are run. (The Cargo home is neither empty nor the root directory.)", "quantifier": "all file systems and renamings, file contents, environments, options, directories, sequences of queries and tool behaviours", "why_tests_cant": "The name of the file is kept with every value and is used to resolve relative paths; a test sees some settings of some files, not that no setting, query or command depends on the name.", "anchors": ["src/walk.rs:23-39", "src/value.rs:33-85", "src/easy.rs:146-187"]}
{"id": "C91", "title": "No query depends on earlier queries or on clones", "statement": "If the tools always answer in the same way, every query of the resolved Config (the target settings, rustc, host_triple, rustc_version, cargo_version, build_target_for_config, build_target_for_cli) returns, whatever was asked of this Config before and whichever clone of it is asked, exactly what it returns as the first query on the freshly loaded Config, including the text of errors. The only exception is the panic of C46, which needs debug assertions and a tool that reports a version but no host.", "quantifier": "all configs, steady tool behaviours, programs that clone and query in any order, and queries", "why_tests_cant": "Six caches are filled in different orders by different queries, and cloning copies them half filled; the number of programs is unbounded and a test runs a few of them.", "anchors": ["src/easy.rs:267-416", "src/resolve.rs:145-415"]}
{"id": "C92", "title": "A setting may be stated in the environment or in the config file of the directory", "statement": "Let two calls of `Config::load_with_options` in the same directory succeed, one where the first set variable of a setting stands for a value, the other where no variable of the setting is set and `.cargo/config` or `.cargo/config.toml` of the current directory has the same value. Then the setting of the two resolved configs is the same, whatever else differs: numbers, booleans, words and texts are equal, programs, directories and target spec files are the same paths, lists have the same elements (if no other config file mentions the list). Likewise the linker and the runner that a query for a target returns are the same whether CARGO_TARGET_<TRIPLE>_LINKER and CARGO_TARGET_<TRIPLE>_RUNNER state them or `[target.<triple>]` in that file.", "quantifier": "all pairs of successful loads in one directory, all settings with a variable, all values", "why_tests_cant": "The two ways go through different code (text of a variable parsed by hand, TOML deserialized and merged, two rules for the base directory) for several dozen settings with unboundedly many values; a test compares one value of one setting.", "anchors": ["src/env.rs:32-413", "src/value.rs:29-100", "src/de.rs:120-190", "src/easy.rs:25-265"]}
{"id": "C93", "title": "Flags and programs handed on in the environment arrive unchanged", "statement": "A program writes flags with `Flags::encode` to `CARGO_ENCODED_RUSTFLAGS`, or, that being unset, with `Flags::encode_space_separated` to `RUSTFLAGS` (the flags then being words; in the first case the list is not empty and does not begin with an empty flag, or is a single empty flag). Then every config loaded with this environment has exactly these flags at `build.rustflags`, and every successful `Config::rustflags` answers exactly these flags, for every target, whatever the config files, the `[target]` tables, the other variables and the tools say and whatever was asked before. Likewise for `CARGO_ENCODED_RUSTDOCFLAGS`, `RUSTDOCFLAGS` and `Config::rustdocflags`. A linker or runner in `CARGO_TARGET_<triple>_LINKER` or `_RUNNER` that is an absolute path or a plain name is the one of every successful answer about the target (for a runner with the words after it as arguments), and a program in the first set variable of its setting, such as `RUSTC`, is the one of the resolved config.", "quantifier": "all lists of flags, all environments, config files, targets, tools, all earlier queries", "why_tests_cant": "This is how wrappers of cargo pass flags to a nested run: it combines the encoding, the decoding, the precedence of several variables over files and target tables, and the cache of targets, for unboundedly many flags and configs.", "anchors": ["src/easy.rs:313-370", "src/easy.rs:1055-1160", "src/de.rs:920-975", "src/env.rs:185-225"]}
{"id": "C94", "title": "A hierarchy of config files can be replaced by one file", "statement": "Let `de::Config` be loaded from any hierarchy of config files and serialized to a file which is the only config file that applies in another place. Then loading `de::Config` there succeeds; every setting has the same value, every list and command the same elements in the same order (only flags spelled as one string become an array), every table the same entries, and all values are said to come from the new file. Serializing it again gives the same document. If `Config` is loaded in both places with the same variables, all settings that are no paths are the same.", "quantifier": "all file systems, hierarchies of config files, places, environments, settings", "why_tests_cant": "It combines merging, locations, all serializers and all deserializers: a field that is renamed in one of them, lists joined in a different order, or words that are joined and split differently would show only for the settings concerned, over unboundedly many hierarchies.", "anchors": ["src/de.rs:34-190", "src/de.rs:905-1200", "src/merge.rs:1-200", "src/gen/de.rs:1-267", "src/gen/is_none.rs:1-114", "src/value.rs:16-26"]}
{"id": "C95", "title": "Options that state the documented default change nothing", "statement": "`ResolveOptions` that give explicitly what is documented as the default change nothing: with `env(std::env::vars_os())`, with `cargo` set to the variable `CARGO` or else `cargo`, and with `cargo_home` set to the `CARGO_HOME` of the process, loading has the same outcome. With `rustc` set to what `Config::rustc` reports, or `host_triple` set to what `Config::host_triple` reports, loading gives the same config and every query on it and on its clones, in any order, has the same result. For each option the last call counts; the order of calls of different setters does not matter.", "quantifier": "all environments, file systems, options, worlds that do not change, queries, programs with clones, sequences of setter calls", "why_tests_cant": "The default and the given value take different paths through the lazily filled cells; whether some query after some history can tell the difference cannot be seen from samples.", "anchors": ["src/resolve.rs:34-143", "src/resolve.rs:160-235", "src/walk.rs:51-65", "src/easy.rs:138-144"]}
{"id": "C96", "title": "A list stated by one file may be written as a string or as an array", "statement": "If only one config file states a list (`alias`, `rustflags`, `rustdocflags`, `build.target`) or a command (`runner`, `doc.browser`), it does not matter whether it is written as an array of strings or as one string (for `build.target` the target, else the words separated by spaces): loading succeeds either way, the fields of the loaded config are the same, and every query gives the same answer and starts the same processes. (If several files state it the spelling does matter: arrays are joined, of strings the nearest is used.)", "quantifier": "all environments, file systems, documents, options, settings, queries, worlds and states of the caches", "why_tests_cant": "The spelling is kept in the unresolved config and carried through merging, `[target]` resolution, cfg tables and variables; that no combination reveals it cannot be sampled.", "anchors": ["src/de.rs:190-312", "src/de.rs:900-1215", "src/easy.rs:313-369"]}
{"id": "C97", "title": "An [env] entry stated by one file may be written as a string or as a table", "statement": "If only one config file states an entry of `[env]`, `NAME = \"value\"` and `NAME = { value = \"value\" }` give the same entry in the resolved config, and writing out `force = false` or `relative = false` changes nothing. Unless `relative = true`, the value of the entry is the text as written, and `force` is as written or else `false`. (If several files state it, a flag written out overrides that of farther files.)", "quantifier": "all environments, file systems, documents, options, names and values", "why_tests_cant": "The two forms are different variants that are merged, resolved and defaulted in different branches; that they agree for every value and in every hierarchy is a statement about all of them.", "anchors": ["src/de.rs:438-480", "src/easy.rs:655-690"]}
{"id": "C98", "title": "Which configuration a target gets depends only on its table, its variables and its cfgs", "statement": "Two targets whose names read the same in names of environment variables (`-`, `.` and `_` and the case of letters are not told apart there), whose tables `[target.<triple>]` have the same contents, and for which `cfg(..)` tables with the same contents are true, get the same configuration; nothing else about the names enters. In particular, if the compiler prints the same cfgs for a target and for a specification file of that name, a first query gives the same configuration for either, succeeds for the one exactly if it succeeds for the other, and panics for the one exactly if it panics for the other.", "quantifier": "all environments, file systems, documents, options, pairs of targets and compilers", "why_tests_cant": "A target has two names, the triple and the one given to the compiler, and an implementation that uses the wrong one in one place is right for all targets without a specification file; which one is used in all places is a statement about all pairs of targets.", "anchors": ["src/de.rs:190-312", "src/easy.rs:313-339", "src/resolve.rs:300-345", "src/resolve.rs:489-515"]}
{"id": "C99", "title": "cfg keys can be composed: of cfg(P) and cfg(not(P)) every target gets exactly one", "statement": "If `P`, `Q`, .. are expressions of the cfg grammar, then so are `not(P)`, `all(P, Q, ..)` and `any(P, Q, ..)` written out with these texts; for the cfgs of every compiler, `cfg(not(P))` is true exactly if `cfg(P)` is false, `cfg(all(P, Q, ..))` exactly if all of `cfg(P)`, `cfg(Q)`, .. are true and `cfg(any(P, Q, ..))` exactly if one of them is. So if a config has tables for both `cfg(P)` and `cfg(not(P))`, every target whose configuration can be queried gets exactly one of them. (Fewer than 256 operands; texts that are accepted outside the grammar cannot be composed like this.)", "quantifier": "all expressions, numbers of operands, compilers, configs and targets", "why_tests_cant": "That two keys exclude each other and cover every target is a statement about all cfg sets a compiler can print, and that arbitrary texts can be inserted as operands is one about all expressions.", "anchors": ["src/cfg_expr/expr/mod.rs", "src/cfg_expr/expr/parser.rs", "src/de.rs:244-277", "src/resolve.rs:300-345"]}
{"id": "C100", "title": "What a further cfg table that is true for a target changes", "statement": "If a table `[target.'cfg(..)']` that is true for a target is added to a config, and the rest of what the config says about the target and about `[build]` stays, then the target still has a linker and a runner if it had them, keeps all its rustflags in their order (new ones may be put before, between or after them), and keeps everything the new table does not state: without `linker` the linker is the same, without `runner` the runner, without `rustflags` the rustflags. Only rustflags that came from `[build]` or the variables for it, which count if the target has no others, may be replaced. The rustdocflags never depend on cfg tables.", "quantifier": "all environments, file systems, pairs of configs that differ by a table, targets and compilers", "why_tests_cant": "It compares the answers of two configs for every table and every place it can have in the order of the tables, with all other sources of the settings present or absent.", "anchors": ["src/de.rs:190-312", "src/easy.rs:313-339"]}
{"id": "C101", "title": "cfg keys that mean the same are interchangeable", "statement": "Two `cfg(..)` keys whose formulas have the same truth value whatever the predicates are (for example with a double negation left out, operands of `all` and `any` exchanged, or by De Morgan's law) are true for the same targets with every compiler; and if in a config the keys are replaced by such keys, in the same order, with the tables unchanged, every query for a target that succeeded still succeeds, with the same configuration and starting the same processes.", "quantifier": "all expressions, configs, environments, targets and compilers", "why_tests_cant": "Logical equivalence is a statement about all sets of cfgs, and that a table depends on its key only through its truth value and its place is one about all pairs of configs.", "anchors": ["src/cfg_expr/expr/mod.rs", "src/cfg_expr/expr/parser.rs", "src/de.rs:244-277", "src/resolve.rs:300-345"]}
{"id": "C102", "title": "Targets printed for the command line are read back as the configured targets", "statement": "If a loaded config configures targets, the strings that `build_target_for_cli` returns without given targets are, converted with `TargetTriple::from`, one for one and in the same order the targets that `build_target_for_config` returns; given to any other config they are returned unchanged and lead to the same targets there; and a single one put into `CARGO_BUILD_TARGET` of a process in whatever directory configures the same target there, also if it is a spec file that was configured by a relative path.", "quantifier": "all successful loads (in absolute directories for the last part), all targets, second configs, directories and environments", "why_tests_cant": "It relates the two functions and the reading of strings for all configured strings, and two loads in arbitrary directories.", "anchors": ["src/easy.rs:267-311", "src/resolve.rs:428-515", "src/resolve.rs:525-539"]}
{"id": "C103", "title": "Only the stated values matter, not which config files state them", "statement": "If two loads have the same variables for a setting and the config files that apply state the same values for it, in the order of the files, then the setting has the same value, whichever of the files state them: for every single value that is taken over as it is, for programs given by an absolute path or a plain name, for lists of strings, for the rustdocflags and (if the same cfg keys apply) the rustflags of every target, and for its linker if all linkers stated are absolute paths or plain names. In particular a setting stated by one file only can be moved to any other file that applies.", "quantifier": "all pairs of successful loads, all hierarchies of config files, all settings, targets and tools", "why_tests_cant": "It relates all ways to distribute settings over files of a hierarchy of any depth.", "anchors": ["src/de.rs:136-204", "src/merge.rs", "src/walk.rs", "src/easy.rs:146-187"]}
