import Verif.Model.Value
/-
String lists, flags, and executables with arguments: construction, encoding, splitting.
-/
namespace CC

/-- The ASCII unit separator 0x1f. -/
def unitSep : Char := Char.ofNat 0x1f

/-- Models `split_encoded` of src/de.rs 1226-1228. -/
def splitEncoded (s : Str) : List Str := splitOn unitSep s

/-- Models `split_space_separated` of src/de.rs 1229-1233. -/
def splitSpaceSeparated (s : Str) : List Str :=
  ((splitOn ' ' s).map trim).filter fun w => !w.isEmpty

/-- Models `StringListDeserializedRepr` of src/de.rs 1117-1120. -/
inductive Repr' where
  | string
  | array
deriving DecidableEq, Repr

/-- Models `de::Flags` of src/de.rs 911-918. -/
structure Flags where
  flags : List (Val Str)
  repr : Repr'
deriving DecidableEq, Repr

/-- Models `de::Flags::from_encoded` of src/de.rs 929-937. -/
def Flags.fromEncoded (v : Val Str) : Flags :=
  { flags := (splitEncoded v.val).map fun w => { val := w, defn := v.defn }, repr := .array }

/-- Models `de::Flags::from_space_separated` of src/de.rs 959-966. -/
def Flags.fromSpaceSeparated (s : Str) (d : Option Definition) : Flags :=
  { flags := (splitSpaceSeparated s).map fun w => { val := w, defn := d }, repr := .string }

/-- Models `de::Flags::from_array` of src/de.rs 968-970. -/
def Flags.fromArray (l : List (Val Str)) : Flags := { flags := l, repr := .array }

/-- Models `ConfigRelativePath` (src/de.rs 989-991, a transparent wrapper) and `de::PathAndArgs` of src/de.rs
1026-1034. -/
structure PathAndArgs where
  path : Val Str
  args : List (Val Str)
  repr : Repr'
deriving DecidableEq, Repr

/-- Models `de::PathAndArgs::from_string` of src/de.rs 1037-1045. -/
def PathAndArgs.fromString (s : Str) (d : Option Definition) : Option PathAndArgs :=
  match splitSpaceSeparated s with
  | [] => none
  | p :: as => some
    { path := { val := p, defn := d }, args := as.map fun w => { val := w, defn := d }, repr := .string }

/-- Models `de::PathAndArgs::from_array` of src/de.rs 1046-1056. -/
def PathAndArgs.fromArray : List (Val Str) → Option PathAndArgs
  | [] => none
  | p :: as => some { path := p, args := as, repr := .array }

/-- Models `de::StringList` of src/de.rs 1107-1114. -/
structure StringList where
  list : List (Val Str)
  repr : Repr'
deriving DecidableEq, Repr

/-- Models `de::StringList::from_string` of src/de.rs 1131-1138. -/
def StringList.fromString (s : Str) (d : Option Definition) : StringList :=
  { list := (splitSpaceSeparated s).map fun w => { val := w, defn := d }, repr := .string }

/-- Models `de::StringList::from_array` of src/de.rs 1139-1141. -/
def StringList.fromArray (l : List (Val Str)) : StringList := { list := l, repr := .array }

/-- Models `de::StringOrArray` of src/de.rs 1184-1187. -/
inductive StringOrArray where
  | string (s : Val Str)
  | array (l : List (Val Str))
deriving DecidableEq, Repr

/-- Models `StringOrArray::as_array_no_split` of src/de.rs 1209-1214. -/
def StringOrArray.asArrayNoSplit : StringOrArray → List (Val Str)
  | .string s => [s]
  | .array l => l

/-! ### The resolved counterparts in `easy` -/

/-- Models `easy::Flags` of src/easy.rs 1040-1044. -/
structure EFlags where
  flags : List Str
deriving DecidableEq, Repr

/-- Models `easy::Flags::from_encoded` of src/easy.rs 1055-1057. -/
def EFlags.fromEncoded (s : Str) : EFlags := { flags := splitEncoded s }

/-- Models `easy::Flags::from_space_separated` of src/easy.rs 1079-1081. -/
def EFlags.fromSpaceSeparated (s : Str) : EFlags := { flags := splitSpaceSeparated s }

/-- `Debug` of the separator in the message of src/easy.rs 1145.  Simplification: only for the two separators in use, the space and the
unit separator, which is escaped. -/
def sepDebug (sep : Char) : Str := if sep = ' ' then "' '".toList else "'\\u{1f}'".toList

/-- The loop of `easy::Flags::encode_internal` of src/easy.rs 1143-1151; the `buf` is the accumulator. -/
def encodeLoop (sep : Char) : Str → List Str → Res Str
  | buf, [] => .ok buf
  | buf, f :: fs =>
    if f.contains sep then
      .err (.other "flag in rustflags must not contain its separator ({})".toList [sepDebug sep])
    else
      let buf := if !buf.isEmpty then buf ++ [sep] else buf
      encodeLoop sep (buf ++ f) fs

/-- Models `easy::Flags::encode_internal` of src/easy.rs 1139-1153 (the capacity hint has no effect). -/
def EFlags.encodeInternal (f : EFlags) (sep : Char) : Res Str := encodeLoop sep [] f.flags

/-- Models `easy::Flags::encode` of src/easy.rs 1103-1105. -/
def EFlags.encode (f : EFlags) : Res Str := f.encodeInternal unitSep

/-- Models `easy::Flags::encode_space_separated` of src/easy.rs 1135-1137. -/
def EFlags.encodeSpaceSeparated (f : EFlags) : Res Str := f.encodeInternal ' '

/-- Models `easy::Flags::push` of src/easy.rs 1156-1158. -/
def EFlags.push (f : EFlags) (s : Str) : EFlags := { flags := f.flags ++ [s] }

/-- Models the conversions of vectors, slices and arrays of strings to `easy::Flags` of src/easy.rs 1161-1185. -/
def EFlags.ofList (l : List Str) : EFlags := { flags := l }

/-- Models the conversion from `de::Flags` in src/easy.rs 553-557 and 622-625: the definitions are dropped. -/
def EFlags.fromUnresolved (f : Flags) : EFlags := { flags := f.flags.map Val.val }

/-- Models `easy::PathAndArgs` of src/easy.rs 1190-1195. -/
structure EPathAndArgs where
  path : Path
  args : List Str
deriving DecidableEq, Repr

/-- Models `easy::PathAndArgs::new` of src/easy.rs 1199-1201. -/
def EPathAndArgs.new (path : Path) : EPathAndArgs := { path := path, args := [] }

/-- Models `easy::PathAndArgs::arg` of src/easy.rs 1203-1206.  Simplification: arguments are Unicode (also in `args`). -/
def EPathAndArgs.arg (x : EPathAndArgs) (s : Str) : EPathAndArgs := { x with args := x.args ++ [s] }

/-- Models `easy::PathAndArgs::args` of src/easy.rs 1208-1211: a method of the same name as the field. -/
def EPathAndArgs.addArgs (x : EPathAndArgs) (l : List Str) : EPathAndArgs := { x with args := x.args ++ l }

/-- Models `easy::StringList` of src/easy.rs 1248-1252. -/
structure EStringList where
  list : List Str
deriving DecidableEq, Repr

/-- Models `easy::StringList::from_string` of src/easy.rs 1255-1257 (and the conversions of strings of 1266-1280). -/
def EStringList.fromString (s : Str) : EStringList := { list := splitSpaceSeparated s }

/-- Models `easy::StringList::from_array` of src/easy.rs 1258-1260 (and the conversions of vectors, slices and arrays of 1281-1305). -/
def EStringList.fromArray (l : List Str) : EStringList := { list := l }

/-- Models `easy::StringList::from_unresolved` of src/easy.rs 1261-1263. -/
def EStringList.fromUnresolved (l : StringList) : EStringList := { list := l.list.map Val.val }

/-- Models `target_u_lower` of src/de.rs 1217-1219. -/
def targetULower (s : Str) : Str := s.map fun c => if c = '-' ∨ c = '.' then '_' else c

/-- `char::to_ascii_uppercase`. -/
def asciiUpper (c : Char) : Char :=
  if 97 ≤ c.toNat ∧ c.toNat ≤ 122 then Char.ofNat (c.toNat - 32) else c

/-- Models `target_u_upper` of src/de.rs 1220-1224. -/
def targetUUpper (s : Str) : Str := (targetULower s).map asciiUpper

example : (EFlags.mk ["a".toList, [], "b".toList]).encode
    = .ok ("a".toList ++ [unitSep, unitSep] ++ "b".toList) := by rfl
example : splitSpaceSeparated " a \tb  c".toList = ["a".toList, "b".toList, "c".toList] := by decide
example : targetUUpper "thumbv8m.base-none".toList = "THUMBV8M_BASE_NONE".toList := by decide

end CC
