import Verif.Model.Config
/-
The enumerations of src/de.rs as strings, and `FromStr` of the scalar types.
-/
namespace CC

/-- Models `VersionControlSoftware::as_str` of src/de.rs 520-530. -/
def Vcs.asStr : Vcs → Str
  | .git => "git".toList
  | .mercurial => "hg".toList
  | .pijul => "pijul".toList
  | .fossil => "fossil".toList
  | .none => "none".toList

/-- Models `FromStr for VersionControlSoftware` of src/de.rs 532-545. -/
def Vcs.fromStr (s : Str) : Res Vcs :=
  if s = "git".toList then .ok .git
  else if s = "hg".toList then .ok .mercurial
  else if s = "pijul".toList then .ok .pijul
  else if s = "fossil".toList then .ok .fossil
  else if s = "none".toList then .ok .none
  else .err (.other "must be git, hg, pijul, fossil, none, but found `{}`".toList [s])

/-- Models `FromStr for RegistriesProtocol` of src/de.rs 696-706. -/
def Protocol.fromStr (s : Str) : Res Protocol :=
  if s = "git".toList then .ok .git
  else if s = "sparse".toList then .ok .sparse
  else .err (.other "must be git or sparse, but found `{}`".toList [s])

/-- Models `Color::as_str` of src/de.rs 802-810. -/
def Color.asStr : Color → Str
  | .auto => "auto".toList
  | .always => "always".toList
  | .never => "never".toList

/-- Models `FromStr for Color` of src/de.rs 818-829. -/
def Color.fromStr (s : Str) : Res Color :=
  if s = "auto".toList then .ok .auto
  else if s = "always".toList then .ok .always
  else if s = "never".toList then .ok .never
  else .err (.other "must be auto, always, or never, but found `{}`".toList [s])

/-- Models `When::as_str` of src/de.rs 843-851. -/
def When.asStr : When → Str
  | .auto => "auto".toList
  | .always => "always".toList
  | .never => "never".toList

/-- Models `FromStr for When` of src/de.rs 859-870. -/
def When.fromStr (s : Str) : Res When :=
  if s = "auto".toList then .ok .auto
  else if s = "always".toList then .ok .always
  else if s = "never".toList then .ok .never
  else .err (.other "must be auto, always, or never, but found `{}`".toList [s])

/-- Models `Frequency::as_str` of src/de.rs 883-890. -/
def Frequency.asStr : Frequency → Str
  | .always => "always".toList
  | .never => "never".toList

/-- Models `FromStr for Frequency` of src/de.rs 898-908. -/
def Frequency.fromStr (s : Str) : Res Frequency :=
  if s = "always".toList then .ok .always
  else if s = "never".toList then .ok .never
  else .err (.other "must be always or never, but found `{}`".toList [s])

/-- Models `Default for Color` (src/de.rs 812-816), `When` (853-857) and `Frequency` (892-896). -/
def Color.default : Color := .auto
@[inherit_doc Color.default] def When.default : When := .auto
@[inherit_doc Color.default] def Frequency.default : Frequency := .always

/-- `str::parse::<i32>()` (std). -/
def i32FromStr (s : Str) : Res Int :=
  match parseI32 s with
  | some i => .ok i
  | none => .err (.std "ParseIntError".toList)

/-- `str::parse::<u32>()` (std). -/
def u32FromStr (s : Str) : Res Nat :=
  match parseU32 s with
  | some n => .ok n
  | none => .err (.std "ParseIntError".toList)

/-- `str::parse::<bool>()` (std). -/
def boolFromStr (s : Str) : Res Bool :=
  match parseBool s with
  | some b => .ok b
  | none => .err (.std "ParseBoolError".toList)

end CC
