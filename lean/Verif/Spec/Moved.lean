import Verif.Spec.Resolve
import Verif.Spec.Cause
import Verif.Spec.EndToEnd
import Verif.Model.Query
/-
Specification vocabulary for moving the config files to other places: which settings may differ then, and how.
-/
namespace CC

/-- The path is the same at both places, or it is the same relative path, resolved against corresponding directories. -/
inductive MovedPath (base : Path → Path → Prop) : Path → Path → Prop where
  | same (p : Path) : MovedPath base p p
  | below (b b' rel : Path) : base b b' → ¬ Path.isAbsolute rel = true → MovedPath base (Path.join b rel) (Path.join b' rel)

/-- Commands with the same arguments whose program moved. -/
def MovedCommand (base : Path → Path → Prop) (x x' : EPathAndArgs) : Prop := MovedPath base x.path x'.path ∧ x.args = x'.args

/-- Targets with the same triple whose spec file moved. -/
def MovedTriple (base : Path → Path → Prop) (t t' : TargetTriple) : Prop :=
  t.triple = t'.triple ∧ OptionRel (MovedPath base) t.specPath t'.specPath

/-- Settings of a target that are the same, up to the place of programs. -/
structure MovedSettings (base : Path → Path → Prop) (t t' : ETarget) : Prop where
  linker : OptionRel (MovedPath base) t.linker t'.linker
  runner : OptionRel (MovedCommand base) t.runner t'.runner
  rustflags : t.rustflags = t'.rustflags
  rustdocflags : t.rustdocflags = t'.rustdocflags

/-- The `[build]` section is the same, up to the place of paths. -/
structure MovedBuild (base : Path → Path → Prop) (b b' : EBuild) : Prop where
  jobs : b.jobs = b'.jobs
  rustc : OptionRel (MovedPath base) b.rustc b'.rustc
  rustcWrapper : OptionRel (MovedPath base) b.rustcWrapper b'.rustcWrapper
  rustcWorkspaceWrapper : OptionRel (MovedPath base) b.rustcWorkspaceWrapper b'.rustcWorkspaceWrapper
  rustdoc : OptionRel (MovedPath base) b.rustdoc b'.rustdoc
  target : OptionRel (ListRel (MovedTriple base)) b.target b'.target
  targetDir : OptionRel (MovedPath base) b.targetDir b'.targetDir
  rustflags : b.rustflags = b'.rustflags
  rustdocflags : b.rustdocflags = b'.rustdocflags
  incremental : b.incremental = b'.incremental
  depInfoBasedir : OptionRel (MovedPath base) b.depInfoBasedir b'.depInfoBasedir

/-- An entry of `[env]` is the same, up to the place of its value. -/
def MovedEnv (base : Path → Path → Prop) (x x' : Str × EEnvValue) : Prop :=
  x.1 = x'.1 ∧ MovedPath base x.2.value x'.2.value ∧ x.2.force = x'.2.force ∧ x.2.relative = x'.2.relative

/-- The public fields of a config are the same, up to the place of paths. -/
structure MovedConfig (base : Path → Path → Prop) (c c' : EConfig) : Prop where
  alias : c.alias = c'.alias
  build : MovedBuild base c.build c'.build
  doc : OptionRel (MovedCommand base) c.doc.browser c'.doc.browser
  env : ListRel (MovedEnv base) c.env c'.env
  futureIncompatReport : c.futureIncompatReport = c'.futureIncompatReport
  cargoNew : c.cargoNew = c'.cargoNew
  http : c.http = c'.http
  net : c.net = c'.net
  registries : c.registries = c'.registries
  registry : c.registry = c'.registry
  term : c.term = c'.term

/-- The answers to a query are the same, up to the place of paths. -/
inductive MovedAnswer (base : Path → Path → Prop) : Answer → Answer → Prop where
  | target {x x'} : MovedSettings base x x' → MovedAnswer base (.target x) (.target x')
  | path {x x'} : OptionRel (MovedPath base) x x' → MovedAnswer base (.path x) (.path x')
  | prog {x x'} : OptionRel (MovedCommand base) x x' → MovedAnswer base (.prog x) (.prog x')
  | flags (x) : MovedAnswer base (.flags x) (.flags x)
  | rustc {x x'} : ListRel (MovedPath base) (x.path :: x.args) (x'.path :: x'.args) → MovedAnswer base (.rustc x) (.rustc x')
  | host (x) : MovedAnswer base (.host x) (.host x)
  | rustcVersion (x) : MovedAnswer base (.rustcVersion x) (.rustcVersion x)
  | cargoVersion (x) : MovedAnswer base (.cargoVersion x) (.cargoVersion x)
  | targets {x x'} : ListRel (MovedTriple base) x x' → MovedAnswer base (.targets x) (.targets x')
  | strings {x x'} : ListRel (MovedPath base) x x' → MovedAnswer base (.strings x) (.strings x')

/-- The outcomes are both results, which are related, or both errors, or both panics. -/
def Alike {α β : Type} (R : α → β → Prop) : Res α → Res β → Prop
  | .ok a, .ok b => R a b
  | .err _, .err _ => True
  | .panic, .panic => True
  | _, _ => False

/-- The tools do the same at both places: commands with the same words, up to the place of paths, have the same outcome. -/
structure SameTools (base : Path → Path → Prop) (w w' : World) : Prop where
  checks : w.checks = w'.checks
  run : ∀ n x x', ListRel (MovedPath base) (x.program :: x.args) (x'.program :: x'.args) → w.run n x = w'.run n x'
  exist : ∀ n p, w.exist n p = w'.exist n p

/-- Corresponding directories: the current directories, and the directories to which config files that correspond to each other belong. -/
inductive Corresponding (cwd cwd' : Path) (files : List (Path × Path)) : Path → Path → Prop where
  | current : Corresponding cwd cwd' files cwd cwd'
  | file (f f' b b' : Path) : (f, f') ∈ files → BaseDir cwd (.path f) b → BaseDir cwd' (.path f') b' → Corresponding cwd cwd' files b b'

/-- Two loads of files with the same contents at different places: `files` are the pairs of corresponding files, nearest first.  The
environment is the same, and so are the options except for the one that tells the Cargo home. -/
structure SameContents (p p' : ProcEnv) (o o' : Options) (fs fs' : Fs) (cwd cwd' : Path) (files : List (Path × Path)) : Prop where
  vars : o.env.isSome = true ∨ p.vars = p'.vars
  options : ∃ home, o' = { o with cargoHome := home }
  here : ∃ home, HomeOf p o cwd home ∧ FilesOf fs cwd home (files.map Prod.fst) ∧
    ∀ h, home = some h → Path.components h ≠ [] ∧ Path.components h ≠ [.root]
  there : ∃ home, HomeOf p' o' cwd' home ∧ FilesOf fs' cwd' home (files.map Prod.snd) ∧
    ∀ h, home = some h → Path.components h ≠ [] ∧ Path.components h ≠ [.root]
  read : ∀ f f', (f, f') ∈ files → fs.read f = fs'.read f'

end CC
