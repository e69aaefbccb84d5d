import Verif.Model.Entry
import Verif.Model.Serde
/-
The example `get` (examples/get.rs): a partial re-implementation of `cargo config get` on top of `de::Config`.

Not modelled: taking the command line apart (`lexopt`), the text of TOML and JSON values, and shell escaping.
-/
namespace CC

/-- Models `Format` of examples/get.rs 115-120. -/
inductive GetFormat where
  | toml | json
deriving DecidableEq, Repr

/-- Models `<Format as FromStr>::from_str` of examples/get.rs 122-131. -/
def GetFormat.parse (s : Str) : Res GetFormat :=
  if s = "toml".toList then .ok .toml
  else if s = "json".toList then .ok .json
  else .err (.other "must be toml or json, but found `{other}`".toList [s])

/-- Models `Merged` of examples/get.rs 133-138. -/
inductive GetMerged where
  | yes | no
deriving DecidableEq, Repr

/-- Models `<Merged as FromStr>::from_str` of examples/get.rs 140-149. -/
def GetMerged.parse (s : Str) : Res GetMerged :=
  if s = "yes".toList then .ok .yes
  else if s = "no".toList then .ok .no
  else .err (.other "must be yes or no, but found `{other}`".toList [s])

/-- An argument as `lexopt` delivers it: the options that `Args::parse` (examples/get.rs 157-171) knows, with the value that
follows, and anything else.  Values that are not Unicode are refused by `lexopt`, and the errors of `from_str` are wrapped by it; neither is
modelled. -/
inductive GetArg where
  | format (value : Str) | merged (value : Str) | help | version | unknown (what : Str)
deriving DecidableEq, Repr

/-- The end of `Args::parse`: the arguments, or the process exits successfully after printing the usage or the version. -/
inductive GetArgs where
  | run (format : GetFormat) (merged : GetMerged)
  | usage | version
deriving DecidableEq, Repr

/-- The loop of `Args::parse` of examples/get.rs 157-171. -/
def getArgsLoop : List GetArg → Option GetFormat → Option GetMerged → Res GetArgs
  | [], format, merged => .ok (.run (format.getD .toml) (merged.getD .yes))
  | .format s :: as, format, merged =>
    if format.isNone then do
      let f ← GetFormat.parse s
      getArgsLoop as (some f) merged
    else .err (.other "invalid option '{}'".toList ["--format".toList])
  | .merged s :: as, format, merged =>
    if merged.isNone then do
      let m ← GetMerged.parse s
      getArgsLoop as format (some m)
    else .err (.other "invalid option '{}'".toList ["--merged".toList])
  | .help :: _, _, _ => .ok .usage
  | .version :: _, _, _ => .ok .version
  | .unknown s :: _, _, _ => .err (.other "invalid option '{}'".toList [s])

/-- Models `Args::parse` of examples/get.rs 152-174. -/
def getArgs (as : List GetArg) : Res GetArgs := getArgsLoop as none none

/-- A line of the standard output: a whole document as JSON, `<path> = <value>`, `# <path>`, or an empty line. -/
inductive GetLine where
  | json (doc : Toml)
  | setting (path : Str) (value : Toml)
  | comment (path : Path)
  | blank
deriving Repr

mutual
/-- Models `print_value` of examples/get.rs 88-98. -/
def printValue (path : Str) : Toml → List GetLine
  | .tbl l => printEntries path l
  | v => [.setting path v]
/-- The loop of `print_value` of examples/get.rs 91-93. -/
def printEntries (path : Str) : List (Str × Toml) → List GetLine
  | [] => []
  | x :: l => printValue (path ++ '.' :: x.1) x.2 ++ printEntries path l
end

/-- The loop of `print_config` of examples/get.rs 100-104. -/
def printTop : List (Str × Toml) → List GetLine
  | [] => []
  | x :: l => printValue x.1 x.2 ++ printTop l

mutual
/-- Models `toml::from_str::<toml::Value>(&toml::to_string(&config)?)?` of examples/get.rs 99: the document comes back with each
table as a `BTreeMap` (`toml::map::Map` without the feature `preserve_order`).  Arrays are left as they are: the arrays of a written
config have no tables in them. -/
def Toml.sortKeys : Toml → Toml
  | .tbl l => .tbl (sortEntries l)
  | v => v
/-- The entries of one table. -/
def sortEntries : List (Str × Toml) → List (Str × Toml)
  | [] => []
  | x :: l => BMap.insert x.1 x.2.sortKeys (sortEntries l)
end

/-- Models `print_config` of examples/get.rs 76-108. -/
def printConfig (format : GetFormat) (c : Config) : List GetLine :=
  match format with
  | .json => [.json c.ser]
  | .toml =>
    match c.ser.sortKeys with
    | .tbl l => printTop l
    | _ => []

/-- The loop of `try_main` of examples/get.rs 50-55 over the paths of the walk: what is printed, and the outcome. -/
def getFiles (fs : Fs) (parse : Str → Res Config) (format : GetFormat) : List Path → List GetLine × Res Unit
  | [] => ([], .ok ())
  | path :: paths =>
    match loadFile fs parse path with
    | .ok c =>
      let r := getFiles fs parse format paths
      (.comment path :: printConfig format c ++ .blank :: r.1, r.2)
    | .err e => ([], .err e)
    | .panic => ([], .panic)

/-- The loop over the environment of examples/get.rs 64-70. -/
def getNotes : List (OsStr × OsStr) → List (Str × Str)
  | [] => []
  | (.unicode k, .unicode v) :: l => if startsWith "CARGO_".toList k then (k, v) :: getNotes l else getNotes l
  | _ :: l => getNotes l

/-- Models the printing part of `try_main` of examples/get.rs 38-58: the lines of the standard output, and the outcome.  `current` is
the outcome of `std::env::current_dir()`. -/
def getPrint (current : Res Path) (p : ProcEnv) (fs : Fs) (parse : Str → Res Config) (format : GetFormat) (merged : GetMerged) :
    List GetLine × Res Unit :=
  match merged with
  | .yes =>
    match Config.load current p fs parse with
    | .ok c => (printConfig format c, .ok ())
    | .err e => ([], .err e)
    | .panic => ([], .panic)
  | .no =>
    if format = .json then
      ([], .err (.other "the `json` format does not support --merged=no, try the `toml` format instead".toList []))
    else
      match current with
      | .ok cwd => getFiles fs parse format (walk fs.ex cwd (p.cargoHomeWithCwd cwd))
      | .err e => ([], .err e)
      | .panic => ([], .panic)

/-- Models `try_main` of examples/get.rs 35-74: the standard output, the variables that the note on the standard error lists (none if
the note is not reached), and the outcome. -/
def getMain (current : Res Path) (p : ProcEnv) (fs : Fs) (parse : Str → Res Config) (format : GetFormat) (merged : GetMerged) :
    List GetLine × Option (List (Str × Str)) × Res Unit :=
  let r := getPrint current p fs parse format merged
  match r.2 with
  | .ok () => (r.1, some (getNotes p.vars), .ok ())
  | .err e => (r.1, none, .err e)
  | .panic => (r.1, none, .panic)

end CC
