import Verif.Spec.EndToEnd
/-
Specification of what a resolved config is written as.
-/
namespace CC

/-- The path starts at the root directory. -/
def Absolute (p : Path) : Prop := ∃ r, p = '/' :: r

/-- Two resolved configs have the same settings; what is needed for target queries (and not part of the settings) is left out. -/
structure SameSettings (c c' : EConfig) : Prop where
  alias : c'.alias = c.alias
  env : c'.env = c.env
  registries : c'.registries = c.registries
  browser : c'.doc.browser = c.doc.browser
  target : c'.build.target = c.build.target
  plain : ∀ k : ScalarKey, k.plain c' = k.plain c
  programs : ∀ k : ScalarKey, k.program c' = k.program c
  directories : ∀ k : ScalarKey, k.directory c' = k.directory c
  lists : ∀ k : ListKey, k.plain c' = k.plain c

/-- An entry of `[env]` in a document: a string, or a table if `force` or `relative` is set, in which only what is set is present. -/
def envDoc (e : EEnvValue) : Toml :=
  if e.force = false ∧ e.relative = false then .str e.value
  else .tbl ([("value".toList, .str e.value)] ++ (if e.force then [("force".toList, .bool true)] else []) ++
    (if e.relative then [("relative".toList, .bool true)] else []))

/-- How a target is written: the path of the spec file, or the triple. -/
def targetText (t : TargetTriple) : Str := t.specPath.getD t.triple

/-- An array of strings. -/
def strings (l : List Str) : Toml := .arr (l.map .str)

/-- The entry of a table, if there is a value. -/
def entry (k : String) (o : Option Toml) : List (Str × Toml) := o.toList.map fun x => (k.toList, x)

/-- The table `[target.<triple>]` with the settings of a target. -/
def targetDoc (e : ETarget) : Toml :=
  .tbl (entry "linker" (e.linker.map .str) ++ entry "runner" (e.runner.map fun x => strings (x.path :: x.args)) ++
    entry "rustflags" (e.rustflags.map fun x => strings x.flags) ++
    entry "rustdocflags" (e.rustdocflags.map fun x => strings x.flags))

/-- A resolved config, after the queries that led to the given cells, sets nothing in a section. -/
structure OmitsSection (c : EConfig) (s : Cells) (sec : Str) : Prop where
  plain : ∀ (k : ScalarKey) x, (k.path fun _ => none).head? = some sec → k.plain c = some x → x = none
  program : ∀ (k : ScalarKey) x, (k.path fun _ => none).head? = some sec → k.program c = some x → x = none
  directory : ∀ (k : ScalarKey) x, (k.path fun _ => none).head? = some sec → k.directory c = some x → x = none
  lists : ∀ (k : ListKey) x, k.path.head? = some sec → k.plain c = some x → x = none
  targets : sec = "build".toList → c.build.target = none
  browser : sec = "doc".toList → c.doc.browser = none
  env : sec = "env".toList → c.env = []
  registries : sec = "registries".toList → c.registries = []
  target : sec = "target".toList → s.target = []

end CC
