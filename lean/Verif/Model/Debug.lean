import Verif.Model.Config
/-
`{:?}` of the unresolved configuration, as the tree handed to the formatter.

Simplification: the names of structs and fields are kept, the layout is not modelled.
-/
namespace CC

/-- `derive(Debug)` of `Option`. -/
def Dbg.opt : Option Dbg → Dbg
  | none => .atom "None".toList
  | some d => .node "Some".toList [([], d)]

/-- `derive(Debug)` of `Vec`. -/
def Dbg.list (l : List Dbg) : Dbg := .node "[]".toList (l.map fun d => ([], d))

/-- `derive(Debug)` of `BTreeMap<String, V>`. -/
def Dbg.map {V : Type} (f : V → Dbg) (m : BMap V) : Dbg := .node "{}".toList (m.map fun (k, v) => (k, f v))

/-- `derive(Debug)` of `bool`. -/
def Dbg.bool (b : Bool) : Dbg := .atom (if b then "true".toList else "false".toList)

/-- `derive(Debug)` of numbers. -/
def Dbg.nat (n : Nat) : Dbg := .atom (toString n).toList
/-- `derive(Debug)` of numbers. -/
def Dbg.int (n : Int) : Dbg := .atom (toString n).toList

/-- `derive(Debug)` of `Definition` (src/value.rs 55). -/
def Definition.dbg : Definition → Dbg
  | .path p => .node "Path".toList [([], .str p)]
  | .environment k => .node "Environment".toList [([], .str k)]
  | .cli p => .node "Cli".toList [([], Dbg.opt (p.map .str))]

/-- `derive(Debug)` of `Value<T>` (src/value.rs 17). -/
def Val.dbg {α : Type} (f : α → Dbg) (v : Val α) : Dbg :=
  .node "Value".toList
    [("val".toList, f v.val), ("definition".toList, Dbg.opt (v.defn.map Definition.dbg))]

/-- Debug of `Option<Value<String>>`. -/
def dbgOptStr (v : Option (Val Str)) : Dbg := Dbg.opt (v.map (Val.dbg .str))

/-- Debug of `Vec<Value<String>>`. -/
def dbgVals (l : List (Val Str)) : Dbg := Dbg.list (l.map (Val.dbg .str))

/-- `derive(Debug)` of `StringListDeserializedRepr` (src/de.rs 1116). -/
def Repr'.dbg : Repr' → Dbg
  | .string => .atom "String".toList
  | .array => .atom "Array".toList

/-- `derive(Debug)` of `Flags` (src/de.rs 911). -/
def Flags.dbg (f : Flags) : Dbg :=
  .node "Flags".toList [("flags".toList, dbgVals f.flags), ("deserialized_repr".toList, f.repr.dbg)]

/-- `derive(Debug)` of `StringList` (src/de.rs 1107). -/
def StringList.dbg (l : StringList) : Dbg :=
  .node "StringList".toList [("list".toList, dbgVals l.list), ("deserialized_repr".toList, l.repr.dbg)]

/-- `derive(Debug)` of `PathAndArgs` (src/de.rs 1026) with `ConfigRelativePath` (989). -/
def PathAndArgs.dbg (x : PathAndArgs) : Dbg :=
  .node "PathAndArgs".toList
    [("path".toList, .node "ConfigRelativePath".toList [([], Val.dbg .str x.path)]),
     ("args".toList, dbgVals x.args), ("deserialized_repr".toList, x.repr.dbg)]

/-- `derive(Debug)` of `TargetConfig` (src/de.rs 394). -/
def TargetConfig.dbg (t : TargetConfig) : Dbg :=
  .node "TargetConfig".toList
    [("linker".toList, dbgOptStr t.linker), ("runner".toList, Dbg.opt (t.runner.map PathAndArgs.dbg)),
     ("rustflags".toList, Dbg.opt (t.rustflags.map Flags.dbg)),
     ("rustdocflags".toList, Dbg.opt (t.rustdocflags.map Flags.dbg))]

/-- `derive(Debug)` of `EnvConfigValue` (src/de.rs 438). -/
def EnvConfigValue.dbg : EnvConfigValue → Dbg
  | .value v => .node "Value".toList [([], Val.dbg .str v)]
  | .table v f r =>
    .node "Table".toList
      [("value".toList, Val.dbg .str v), ("force".toList, Dbg.opt (f.map (Val.dbg Dbg.bool))),
       ("relative".toList, Dbg.opt (r.map (Val.dbg Dbg.bool)))]

/-- `derive(Debug)` of `RegistriesProtocol` (src/de.rs 684). -/
def Protocol.dbg : Protocol → Dbg
  | .git => .atom "Git".toList
  | .sparse => .atom "Sparse".toList

/-- The redacted token shown by src/de.rs 670-672 and 737-739. -/
def dbgToken (t : Option (Val Str)) : Dbg :=
  dbgOptStr (t.map fun t => { val := "[REDACTED]".toList, defn := t.defn })

/-- Models `impl Debug for RegistriesConfigValue` of src/de.rs 667-679. -/
def RegistriesConfigValue.dbg (r : RegistriesConfigValue) : Dbg :=
  .node "RegistriesConfigValue".toList
    [("index".toList, dbgOptStr r.index), ("token".toList, dbgToken r.token),
     ("protocol".toList, Dbg.opt (r.protocol.map (Val.dbg Protocol.dbg)))]

/-- Models `impl Debug for RegistryConfig` of src/de.rs 734-745. -/
def RegistryConfig.dbg (r : RegistryConfig) : Dbg :=
  .node "RegistryConfig".toList
    [("default".toList, dbgOptStr r.default), ("token".toList, dbgToken r.token)]

end CC
