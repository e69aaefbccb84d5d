import Verif.Model.CfgExpr
/-
The crate's own tests of `cfg(..)` expressions (src/cfg_expr/tests/lexer.rs, parser.rs and eval.rs), transcribed and evaluated on the
model.  These are tests of the model, not proofs of properties: they check that the model agrees with the expectations recorded
in the repository.  Where a test asks an installed `rustc` for the settings of a target, the settings are given here instead.
-/
namespace CC.Conformance

/-- `Lexer::new(text).map(|lt| lt.unwrap().token).collect()`. -/
def lexFuel : Nat → Lexer → Option (List Token)
  | 0, _ => none
  | n + 1, l =>
    match l.next with
    | none => some []
    | some (.ok (t, l)) => (lexFuel n l).map (t.token :: ·)
    | some _ => none

def lexed (text : String) : Option (List Token) := (cfgText text.toList).bind fun s => lexFuel (s.length + 1) ⟨s, s, 0⟩

/-- `Expression::predicates` of src/cfg_expr/expr/mod.rs 70-81 (compiled for tests only). -/
def predicatesOf (text : String) : Option (List Predicate) :=
  (Expression.parse true text.toList).toOption.bind fun e =>
    e.expr.foldr (fun n acc => acc.bind fun l =>
      match n with
      | .predicate p => (p.toPred e.original).map (· :: l)
      | .fn _ => some l) (some [])

/-- `Expression::parse(text).unwrap_err()`. -/
def parseErr (text : String) : Option ParseError :=
  match Expression.parse true text.toList with
  | .err (.cfgParse e) => some e
  | _ => none

def key (s : String) : Token := .key s.toList
def value (s : String) : Token := .value s.toList
def flag (s : String) : Predicate := .flag s.toList
def kv (k v : String) : Predicate := .keyValue k.toList v.toList
def words (l : List String) : Reason := .unexpected (l.map String.toList)

/-! ### src/cfg_expr/tests/lexer.rs -/

/-- `handles_raw`, `strips_attribute`, `handle_key_value`, `handle_empty_value`, `handle_short_key`. -/
example : lexed "key" = some [key "key"] ∧ lexed "cfg(key)" = some [key "key"] ∧
    lexed "key = \"value\"" = some [key "key", .equals, value "value"] ∧ lexed "key = \"\"" = some [key "key", .equals, value ""] ∧
    lexed "k" = some [key "k"] := by decide +kernel

/-- `handle_cfg_keywords`. -/
example : lexed "all(any(not(any_blah,all_nope,not_any)))" = some [.all, .openParen, .any, .openParen, .not, .openParen, key "any_blah",
    .comma, key "all_nope", .comma, key "not_any", .closeParen, .closeParen, .closeParen] := by decide +kernel

/-! ### src/cfg_expr/tests/parser.rs -/

/-- The tests that expect an error: the text, the place and the reason. -/
def errors : List (String × Nat × Nat × Reason) :=
  let beginnings := words ["<key>", "all", "any", "not"]
  -- fails_empty
  [("", 0, 0, .empty), (" ", 0, 1, .empty), ("\n\t\n", 0, 3, .empty),
   -- fails_malformed
   (",", 0, 1, beginnings), ("8", 0, 1, beginnings), ("=", 0, 1, beginnings), ("(", 0, 1, beginnings),
   ("key =", 5, 5, words ["\"<value>\""]), ("key1, key2", 0, 10, .multipleRootPredicates),
   ("key1, key2,     ", 0, 16, .multipleRootPredicates), ("key1 = \"v\", key2", 0, 16, .multipleRootPredicates),
   -- fails_unbalanced_parens
   ("not(key", 3, 7, .unclosedParens), ("key)", 3, 4, .unopenedParens), ("foo (", 4, 5, words ["=", ",", ")"]),
   -- fails_unbalanced_quotes
   ("key = \"value", 6, 12, .unclosedQuotes), ("key = \"", 6, 7, .unclosedQuotes),
   ("key = \"value, key = \"value\"", 21, 26, words [",", ")"]), ("all(key = \"value), key = \"value\"", 26, 31, words [",", ")"]),
   ("not(key = \"value)", 10, 17, .unclosedQuotes),
   -- fails_invalid_fns
   ("nope()", 4, 5, words ["=", ",", ")"]), ("all(nope())", 8, 9, words ["=", ",", ")"]),
   ("any(,)", 4, 5, words ["<key>", ")", "all", "any", "not"]), ("blah(key)", 4, 5, words ["=", ",", ")"]),
   -- ensures_not_has_one_predicate
   ("not()", 0, 5, .invalidNot 0), ("not(key_one, key_two)", 0, 21, .invalidNot 2),
   ("any(not(not(key_one, key_two)))", 8, 29, .invalidNot 2)]

example : ∀ x ∈ errors, parseErr x.1 = some ⟨x.1.toList, ⟨x.2.1, x.2.2.1⟩, x.2.2.2⟩ := by decide +kernel

/-- The tests that expect an expression: the text and its predicates. -/
def accepted : List (String × List Predicate) :=
  -- handles_single_predicate
  [("cfg(key)", [flag "key"]), ("unix", [flag "unix"]), ("target_arch = \"mips\"", [kv "target_arch" "mips"]),
   ("feature = \"awesome\"", [kv "feature" "awesome"]), ("_key", [flag "_key"]), (" key", [flag "key"]), (" key  ", [flag "key"]),
   (" key  = \"val\"", [kv "key" "val"]), ("key=\"\"", [kv "key" ""]), (" key=\"7\"       ", [kv "key" "7"]),
   ("key = \"7 q\" ", [kv "key" "7 q"]), ("target_has_atomic = \"ptr\"", [kv "target_has_atomic" "ptr"]),
   ("target_has_atomic = \"4\"", [kv "target_has_atomic" "4"]), ("target_has_atomic = \"64\"", [kv "target_has_atomic" "64"]),
   ("target_has_atomic = \"128\" ", [kv "target_has_atomic" "128"]), ("panic = \"unwind\"", [kv "panic" "unwind"]),
   ("panic = \"abort\"", [kv "panic" "abort"]),
   -- handles_simple_fns
   ("any()", []), ("all()", []), ("not(key = \"value\")", [kv "key" "value"]),
   -- ensures_not_has_one_predicate
   ("not(key)", [flag "key"]), ("not(key,)", [flag "key"]), ("not(key = \"value\")", [kv "key" "value"]),
   ("not(key = \"value\",)", [kv "key" "value"]), ("not(not(not(key = \"value\",)))", [kv "key" "value"])]

example : ∀ x ∈ accepted, predicatesOf x.1 = some x.2 := by decide +kernel

/-! ### src/cfg_expr/tests/eval.rs -/

def evalWith (text : String) (v : Predicate → Bool) : Option Bool :=
  (Expression.parse true text.toList).toOption.bind fun e => e.eval boolLogic v

/-- `tiny`. -/
example : evalWith "all()" (fun _ => false) = some true ∧ evalWith "any()" (fun _ => true) = some false ∧
    evalWith "not(all())" (fun _ => false) = some false ∧ evalWith "not(any())" (fun _ => true) = some true ∧
    evalWith "all(not(blah))" (fun _ => false) = some true ∧ evalWith "any(not(blah))" (fun _ => true) = some false := by decide +kernel

/-- The value of an expression for the output of `rustc --print cfg`. -/
def evalFor (text cfg : String) : Option Bool := (CfgSet.parse cfg.toList).bind fun c => evalWith text c.holds

/-- What `rustc --print cfg --target <triple>` prints, as far as it matters below. -/
def linux : String := "debug_assertions\ntarget_arch=\"x86_64\"\ntarget_env=\"gnu\"\ntarget_family=\"unix\"\ntarget_os=\"linux\"\nunix\n"
def darwin : String := "debug_assertions\ntarget_arch=\"x86_64\"\ntarget_env=\"\"\ntarget_family=\"unix\"\ntarget_os=\"macos\"\nunix\n"
def android : String := "target_arch=\"aarch64\"\ntarget_env=\"\"\ntarget_family=\"unix\"\ntarget_os=\"android\"\nunix\n"
def msvc : String := "target_arch=\"x86_64\"\ntarget_env=\"msvc\"\ntarget_family=\"windows\"\ntarget_os=\"windows\"\nwindows\n"
def wasm : String := "target_arch=\"wasm32\"\ntarget_env=\"\"\ntarget_family=\"wasm\"\ntarget_os=\"unknown\"\n"
def none' : String := "target_arch=\"arm\"\ntarget_os=\"none\"\n"
def msvc32 (sse : Bool) : String :=
  "panic=\"unwind\"\ntarget_arch=\"x86\"\ntarget_endian=\"little\"\ntarget_env=\"msvc\"\ntarget_family=\"windows\"\n" ++
  "target_feature=\"fxsr\"\n" ++ (if sse then "target_feature=\"sse\"\ntarget_feature=\"sse2\"\n" else "") ++
  "target_has_atomic=\"16\"\ntarget_has_atomic=\"32\"\ntarget_has_atomic=\"64\"\ntarget_has_atomic=\"8\"\ntarget_has_atomic=\"ptr\"\n" ++
  "target_os=\"windows\"\ntarget_pointer_width=\"32\"\ntarget_vendor=\"pc\"\nwindows\n"

/-- `target_family`. -/
example : [darwin, msvc, wasm, none'].map (evalFor "any(unix, target_family = \"windows\", target_family = \"wasm\")") =
      [some true, some true, some true, some false] ∧
    [darwin, msvc, wasm, none'].map (evalFor "all(windows, target_family = \"unix\")") =
      [some false, some false, some false, some false] := by decide +kernel

/-- `very_specific`. -/
def specific : String :=
  "all(\n target_os = \"windows\",\n target_arch = \"x86\",\n windows,\n target_env = \"msvc\",\n target_feature = \"fxsr\",\n " ++
  "target_feature = \"sse\",\n target_feature = \"sse2\",\n target_pointer_width = \"32\",\n target_endian = \"little\",\n " ++
  "not(target_vendor = \"uwp\"),\n target_has_atomic = \"8\",\n target_has_atomic = \"16\",\n target_has_atomic = \"32\",\n " ++
  "target_has_atomic = \"64\",\n not(target_has_atomic = \"128\"),\n target_has_atomic = \"ptr\",\n panic = \"unwind\",\n " ++
  "not(panic = \"abort\"),\n )"

example : evalFor specific (msvc32 true) = some true ∧ evalFor specific (msvc32 false) = some false := by decide +kernel

/-- `complex`. -/
example : [linux, msvc, darwin, android].map
      (evalFor "cfg(all(unix, not(any(target_os=\"macos\", target_os=\"android\", target_os=\"emscripten\"))))") =
      [some true, some false, some false, some false] ∧
    [linux, msvc, darwin, android].map (evalFor "all(not(target_os = \"ios\"), not(target_os = \"android\"))") =
      [some true, some true, some true, some false] ∧
    [linux, darwin, msvc, android].map
      (evalFor "all(any(unix, target_arch=\"x86\"), not(any(target_os=\"android\", target_os=\"emscripten\")))") =
      [some true, some true, some false, some false] ∧
    [linux, none'].map (evalFor "all(target_os=\"none\")") = [some false, some true] := by decide +kernel

/-- `wasm_family`. -/
example : evalFor "cfg(target_family = \"wasm\")" wasm = some true := by decide +kernel

end CC.Conformance
