import Verif.Model.Path
/-
Locating config files (src/walk.rs).

The file system is the parameter `ex : Path → Bool` ("the path exists"), given anew to each call of `next`, so it may
change between calls.
-/
namespace CC

/-- Models `config_path` of src/walk.rs 23-39. -/
def configPath (ex : Path → Bool) (path : Path) : Option Path :=
  let config := Path.join path "config".toList
  if ex config then some config
  else
    let config := Path.join path "config.toml".toList
    if ex config then some config
    else none

/-- Models `cargo_home_with_cwd` of src/walk.rs 51-65.  `var` is the `CARGO_HOME` variable of the process (`std::env`) and `home`
the result of `home_dir()`.  Simplification: the variable's value is a path made of characters. -/
def cargoHomeWithCwd (var : Option Path) (home : Option Path) (cwd : Path) : Option Path :=
  match var.filter fun h => !h.isEmpty with
  | some h => if Path.isAbsolute h then some h else some (Path.join cwd h)
  | none => home.map fun h => Path.join h ".cargo".toList

/-- Models `WalkInner` of src/walk.rs 70-73.  The `Ancestors` iterator (std) is the list of what it will still produce. -/
structure WalkState where
  ancestors : List Path
  cargoHome : Option Path
deriving DecidableEq, Repr

/-- Models `WalkInner::with_cargo_home` of src/walk.rs 78-80 (and `Walk::with_cargo_home` 114-116). -/
def WalkState.new (cwd : Path) (cargoHome : Option Path) : WalkState :=
  { ancestors := Path.ancestors cwd, cargoHome := cargoHome }

/-- Models the dedup step of src/walk.rs 89-91: `CARGO_HOME` is forgotten once it equals (as a path) the directory being
visited. -/
def dedupHome (p : Path) (home : Option Path) : Option Path :=
  match home with
  | some h => if Path.eqv h p then none else some h
  | none => none

/-- Models `<WalkInner as Iterator>::next` of src/walk.rs 85-97: the `for` loop over the remaining ancestors is the
recursion. -/
def walkNext (ex : Path → Bool) : List Path → Option Path → Option Path × WalkState
  | [], home =>
    match home with
    | none => (none, ⟨[], none⟩)
    | some h => (configPath ex h, ⟨[], none⟩)
  | a :: as, home =>
    let p := Path.join a ".cargo".toList
    let home := dedupHome p home
    match configPath ex p with
    | some f => (some f, ⟨as, home⟩)
    | none => walkNext ex as home

/-- `Iterator::next` on the state. -/
def WalkState.next (ex : Path → Bool) (st : WalkState) : Option Path × WalkState :=
  walkNext ex st.ancestors st.cargoHome

/-- Running the iterator to exhaustion with at most `n` calls of `next` (`for path in WalkInner::..`). -/
def WalkState.collect (ex : Path → Bool) : Nat → WalkState → List Path
  | 0, _ => []
  | n + 1, st =>
    match st.next ex with
    | (none, _) => []
    | (some f, st') => f :: collect ex n st'

/-- The paths produced by a walk: models the `for` loop of src/de.rs 141.  The bound on the number of
calls is never reached (`C01_walk`). -/
def walk (ex : Path → Bool) (cwd : Path) (home : Option Path) : List Path :=
  WalkState.collect ex ((Path.ancestors cwd).length + 2) (WalkState.new cwd home)

end CC
