import Verif.Spec.Moved
/-
Specification vocabulary for the two names a config file may have, and for configs that cannot be told apart.
-/
namespace CC

/-- In the directory `d` both file systems have a config file, under either of its names and with the same contents, or neither has one. -/
def SameConfigIn (fs fs' : Fs) (d : Path) : Prop :=
  ((∀ f, ¬ IsConfigOf fs.ex d f) ∧ ∀ f, ¬ IsConfigOf fs'.ex d f) ∨
  ∃ f f', IsConfigOf fs.ex d f ∧ IsConfigOf fs'.ex d f' ∧ fs.read f = fs'.read f'

/-- The public fields are equal. -/
structure SamePublic (c c' : EConfig) : Prop where
  alias : c.alias = c'.alias
  jobs : c.build.jobs = c'.build.jobs
  rustc : c.build.rustc = c'.build.rustc
  rustcWrapper : c.build.rustcWrapper = c'.build.rustcWrapper
  rustcWorkspaceWrapper : c.build.rustcWorkspaceWrapper = c'.build.rustcWorkspaceWrapper
  rustdoc : c.build.rustdoc = c'.build.rustdoc
  target : c.build.target = c'.build.target
  targetDir : c.build.targetDir = c'.build.targetDir
  rustflags : c.build.rustflags = c'.build.rustflags
  rustdocflags : c.build.rustdocflags = c'.build.rustdocflags
  incremental : c.build.incremental = c'.build.incremental
  depInfoBasedir : c.build.depInfoBasedir = c'.build.depInfoBasedir
  doc : c.doc = c'.doc
  env : c.env = c'.env
  futureIncompatReport : c.futureIncompatReport = c'.futureIncompatReport
  cargoNew : c.cargoNew = c'.cargoNew
  http : c.http = c'.http
  net : c.net = c'.net
  registries : c.registries = c'.registries
  registry : c.registry = c'.registry
  term : c.term = c'.term

end CC
