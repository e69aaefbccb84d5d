import Verif.Model.Debug
/-
Merging of configurations (src/merge.rs, src/gen/de.rs).

`merge(&mut self, low, force)` returns the new `self`.  On `Err` the partially merged value is dropped, as its only caller does
(src/de.rs 145 with `?`).
-/
namespace CC

/-- A merge function. -/
abbrev Merger (α : Type) := α → α → Bool → Res α

/-- Models `merge_non_container!` of src/merge.rs 28-56, on `T` and on `Value<T>`. -/
def mergeScalar {α : Type} : Merger α := fun this low force => .ok (if force then low else this)

/-- Models `Merge for Option<T>` of src/merge.rs 58-67. -/
def mergeOpt {α : Type} (m : Merger α) : Merger (Option α)
  | this, none, _ => .ok this
  | none, low, _ => .ok low
  | some this, some low, force => (m this low force) >>= fun r => .ok (some r)

/-- The error of mixed shapes, `bail!("expected {}, but found {}")`. -/
def mixErr (expected actual : Str) : Err := .other "expected {}, but found {}".toList [expected, actual]

/-- Models `StringListDeserializedRepr::as_str` of src/de.rs 1122-1127. -/
def Repr'.asStr : Repr' → Str
  | .string => "string".toList
  | .array => "array".toList

/-- Models `StringOrArray::kind` of src/de.rs 1190-1195. -/
def StringOrArray.kind : StringOrArray → Str
  | .string _ => "string".toList
  | .array _ => "array".toList

/-- Models `EnvConfigValue::kind` of src/de.rs 453-458. -/
def EnvConfigValue.kind : EnvConfigValue → Str
  | .value _ => "string".toList
  | .table .. => "table".toList

/-- Models `Merge for StringOrArray` of src/merge.rs 68-88. -/
def mergeStringOrArray : Merger StringOrArray
  | .string this, .string low, force => .ok (if force then .string low else .string this)
  | .array this, .array low, _ => .ok (.array (low ++ this))
  | this, low, _ => .err (mixErr this.kind low.kind)

/-- Models `Merge for PathAndArgs` of src/merge.rs 89-117. -/
def mergePathAndArgs : Merger PathAndArgs := fun this low force =>
  match this.repr, low.repr with
  | .string, .string => .ok (if force then low else this)
  | .array, .array => .ok { this with args := this.args ++ [low.path] ++ low.args }
  | a, b => .err (mixErr a.asStr b.asStr)

/-- Models `Merge for StringList` of src/merge.rs 118-138. -/
def mergeStringList : Merger StringList := fun this low force =>
  match this.repr, low.repr with
  | .string, .string => .ok (if force then low else this)
  | .array, .array => .ok { this with list := low.list ++ this.list }
  | a, b => .err (mixErr a.asStr b.asStr)

/-- Models `Merge for EnvConfigValue` of src/merge.rs 139-161. -/
def mergeEnvConfigValue : Merger EnvConfigValue
  | .value this, .value low, force => .ok (.value (if force then low else this))
  | .table v f r, .table lv lf lr, force => do
    let v ← mergeScalar v lv force
    let f ← mergeOpt mergeScalar f lf force
    let r ← mergeOpt mergeScalar r lr force
    .ok (.table v f r)
  | this, low, _ => .err (mixErr this.kind low.kind)

/-- Models `Merge for Flags` of src/merge.rs 162-182. -/
def mergeFlags : Merger Flags := fun this low force =>
  match this.repr, low.repr with
  | .string, .string => .ok (if force then low else this)
  | .array, .array => .ok { this with flags := low.flags ++ this.flags }
  | a, b => .err (mixErr a.asStr b.asStr)

/-- The two `{:?}` of the context in src/merge.rs 190-195, for a merge that leaves the entry as it was when it fails. -/
def clash {V : Type} (dbg : V → Dbg) (entry value : V) (_force : Bool) : List Dbg := [dbg entry, dbg value]

/-- Models `Merge for BTreeMap<String, V>` of src/merge.rs 183-203: the `for` loop over `low` is the recursion.  `dbg` gives the two
values shown by the context of a failed merge of two entries. -/
def mergeMap {V : Type} (dbg : V → V → Bool → List Dbg) (m : Merger V) : BMap V → BMap V → Bool → Res (BMap V)
  | self, [], _ => .ok self
  | self, (key, value) :: low, force =>
    match self.get key with
    | some entry =>
      ((m entry value force).withContext "failed to merge key `{}` between {} and {}".toList
        [key] (dbg entry value force)) >>= fun e => mergeMap dbg m (self.insert key e) low force
    | none => mergeMap dbg m (self.insert key value) low force

/-- Models `Merge for BuildConfig` of src/gen/de.rs 42-57.  The two override flags are not merged. -/
def mergeBuild : Merger BuildConfig := fun a b force => do
  let jobs ← mergeOpt mergeScalar a.jobs b.jobs force
  let rustc ← mergeOpt mergeScalar a.rustc b.rustc force
  let rustcWrapper ← mergeOpt mergeScalar a.rustcWrapper b.rustcWrapper force
  let rustcWorkspaceWrapper ← mergeOpt mergeScalar a.rustcWorkspaceWrapper b.rustcWorkspaceWrapper force
  let rustdoc ← mergeOpt mergeScalar a.rustdoc b.rustdoc force
  let target ← mergeOpt mergeStringOrArray a.target b.target force
  let targetDir ← mergeOpt mergeScalar a.targetDir b.targetDir force
  let rustflags ← mergeOpt mergeFlags a.rustflags b.rustflags force
  let rustdocflags ← mergeOpt mergeFlags a.rustdocflags b.rustdocflags force
  let incremental ← mergeOpt mergeScalar a.incremental b.incremental force
  let depInfoBasedir ← mergeOpt mergeScalar a.depInfoBasedir b.depInfoBasedir force
  .ok { a with
    jobs, rustc, rustcWrapper, rustcWorkspaceWrapper, rustdoc, target, targetDir, rustflags, rustdocflags
    incremental, depInfoBasedir }

/-- Models `Merge for TargetConfig` of src/gen/de.rs 73-81. -/
def mergeTarget : Merger TargetConfig := fun a b force => do
  let linker ← mergeOpt mergeScalar a.linker b.linker force
  let runner ← mergeOpt mergePathAndArgs a.runner b.runner force
  let rustflags ← mergeOpt mergeFlags a.rustflags b.rustflags force
  let rustdocflags ← mergeOpt mergeFlags a.rustdocflags b.rustdocflags force
  .ok { linker, runner, rustflags, rustdocflags }

/-- The `TargetConfig` that `merge` of src/gen/de.rs 73-81 leaves behind when it fails: the fields before the one that fails have been
merged. -/
def mergeTargetLeft (a b : TargetConfig) (force : Bool) : TargetConfig :=
  match mergeOpt mergeScalar a.linker b.linker force with
  | .ok linker =>
    match mergeOpt mergePathAndArgs a.runner b.runner force with
    | .ok runner =>
      match mergeOpt mergeFlags a.rustflags b.rustflags force with
      | .ok rustflags => { a with linker, runner, rustflags }
      | _ => { a with linker, runner }
    | _ => { a with linker }
  | _ => a

/-- The two `{:?}` of the context in src/merge.rs 190-195 for two tables of a target. -/
def clashTarget (entry value : TargetConfig) (force : Bool) : List Dbg :=
  [(mergeTargetLeft entry value force).dbg, value.dbg]

/-- Models `Merge for DocConfig` of src/gen/de.rs 90-95. -/
def mergeDoc : Merger DocConfig := fun a b force => do
  let browser ← mergeOpt mergePathAndArgs a.browser b.browser force
  .ok { browser }

/-- Models `Merge for FutureIncompatReportConfig` of src/gen/de.rs 115-120. -/
def mergeFutureIncompatReport : Merger FutureIncompatReportConfig := fun a b force => do
  let frequency ← mergeOpt mergeScalar a.frequency b.frequency force
  .ok { frequency }

/-- Models `Merge for CargoNewConfig` of src/gen/de.rs 126-131. -/
def mergeCargoNew : Merger CargoNewConfig := fun a b force => do
  let vcs ← mergeOpt mergeScalar a.vcs b.vcs force
  .ok { vcs }

/-- Models `Merge for HttpConfig` of src/gen/de.rs 137-149. -/
def mergeHttp : Merger HttpConfig := fun a b force => do
  let debug ← mergeOpt mergeScalar a.debug b.debug force
  let proxy ← mergeOpt mergeScalar a.proxy b.proxy force
  let timeout ← mergeOpt mergeScalar a.timeout b.timeout force
  let cainfo ← mergeOpt mergeScalar a.cainfo b.cainfo force
  let checkRevoke ← mergeOpt mergeScalar a.checkRevoke b.checkRevoke force
  let lowSpeedLimit ← mergeOpt mergeScalar a.lowSpeedLimit b.lowSpeedLimit force
  let multiplexing ← mergeOpt mergeScalar a.multiplexing b.multiplexing force
  let userAgent ← mergeOpt mergeScalar a.userAgent b.userAgent force
  .ok { debug, proxy, timeout, cainfo, checkRevoke, lowSpeedLimit, multiplexing, userAgent }

/-- Models `Merge for NetConfig` of src/gen/de.rs 162-169. -/
def mergeNet : Merger NetConfig := fun a b force => do
  let retry ← mergeOpt mergeScalar a.retry b.retry force
  let gitFetchWithCli ← mergeOpt mergeScalar a.gitFetchWithCli b.gitFetchWithCli force
  let offline ← mergeOpt mergeScalar a.offline b.offline force
  .ok { retry, gitFetchWithCli, offline }

/-- Models `Merge for RegistriesConfigValue` of src/gen/de.rs 177-184. -/
def mergeRegistries : Merger RegistriesConfigValue := fun a b force => do
  let index ← mergeOpt mergeScalar a.index b.index force
  let token ← mergeOpt mergeScalar a.token b.token force
  let protocol ← mergeOpt mergeScalar a.protocol b.protocol force
  .ok { index, token, protocol }

/-- Models `Merge for RegistryConfig` of src/gen/de.rs 192-198. -/
def mergeRegistry : Merger RegistryConfig := fun a b force => do
  let default ← mergeOpt mergeScalar a.default b.default force
  let token ← mergeOpt mergeScalar a.token b.token force
  .ok { default, token }

/-- Models `Merge for TermProgress` of src/gen/de.rs 222-228. -/
def mergeTermProgress : Merger TermProgress := fun a b force => do
  let when ← mergeOpt mergeScalar a.when b.when force
  let width ← mergeOpt mergeScalar a.width b.width force
  .ok { when, width }

/-- Models `Merge for TermConfig` of src/gen/de.rs 205-213. -/
def mergeTerm : Merger TermConfig := fun a b force => do
  let quiet ← mergeOpt mergeScalar a.quiet b.quiet force
  let verbose ← mergeOpt mergeScalar a.verbose b.verbose force
  let color ← mergeOpt mergeScalar a.color b.color force
  let progress ← mergeTermProgress a.progress b.progress force
  .ok { quiet, verbose, color, progress }

/-- Models `Merge for Config` of src/gen/de.rs 9-25 (`Config::merge` of src/de.rs 181-183). -/
def mergeConfig : Merger Config := fun a b force => do
  let alias ← mergeMap (clash StringList.dbg) mergeStringList a.alias b.alias force
  let build ← mergeBuild a.build b.build force
  let doc ← mergeDoc a.doc b.doc force
  let env ← mergeMap (clash EnvConfigValue.dbg) mergeEnvConfigValue a.env b.env force
  let futureIncompatReport ← mergeFutureIncompatReport a.futureIncompatReport b.futureIncompatReport force
  let cargoNew ← mergeCargoNew a.cargoNew b.cargoNew force
  let http ← mergeHttp a.http b.http force
  let net ← mergeNet a.net b.net force
  let registries ← mergeMap (clash RegistriesConfigValue.dbg) mergeRegistries a.registries b.registries force
  let registry ← mergeRegistry a.registry b.registry force
  let target ← mergeMap clashTarget mergeTarget a.target b.target force
  let term ← mergeTerm a.term b.term force
  .ok { alias, build, doc, env, futureIncompatReport, cargoNew, http, net, registries, registry, target, term }

end CC
