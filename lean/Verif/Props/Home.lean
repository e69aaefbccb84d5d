import Verif.Model.Query
import Verif.Spec.Home
import Verif.Spec.Env
import Verif.Lemmas.Path
/-
Where `CARGO_HOME` comes from: C04.
-/
namespace CC

theorem cargoHome_of_rule {p : ProcEnv} {cwd : Path} {h : Option Path}
    (hh : HomeRule cwd ((firstValue p.vars "CARGO_HOME".toList).map OsStr.path) p.home h) : p.cargoHomeWithCwd cwd = h := by
  unfold ProcEnv.cargoHomeWithCwd cargoHomeWithCwd
  have abs : ∀ v : Path, Path.isAbsolute v = true ↔ ∃ r, v = '/' :: r := by
    intro v
    unfold Path.isAbsolute
    split
    · simp
    · rename_i hv
      simp only [Bool.false_eq_true, false_iff, not_exists]
      exact hv
  rw [show firstValue p.vars "CARGO_HOME".toList = p.varOs "CARGO_HOME".toList by
    unfold firstValue ProcEnv.varOs; rw [List.head?_filter]] at hh
  generalize (p.varOs "CARGO_HOME".toList).map OsStr.path = var at hh
  generalize p.home = home at hh
  cases hh with
  | absolute v _ hv =>
    have h1 : v.isEmpty = false := by obtain ⟨r, rfl⟩ := hv; rfl
    simp only [Option.filter_some, h1, Bool.not_false, if_true, (abs v).2 hv]
  | relative v _ hne hv =>
    have h1 : v.isEmpty = false := by cases v with
      | nil => exact absurd rfl hne
      | cons _ _ => rfl
    have h2 : Path.isAbsolute v = false := by rw [← Bool.not_eq_true, abs]; exact hv
    simp only [Option.filter_some, h1, Bool.not_false, if_true, h2, Bool.false_eq_true, if_false]
  | unset var home hv => rcases hv with rfl | rfl <;> rfl
  | nothing var hv => rcases hv with rfl | rfl <;> rfl

/-- C04: without `ResolveOptions::cargo_home`, loading is loading with the directory of `HomeRule`, applied to the `CARGO_HOME`
variable of the process (whether or not other variables are given with `ResolveOptions::env`) and its home directory. -/
theorem C04_from_process (p : ProcEnv) (fs : Fs) (parse : Str → Res Config) (cwd : Path) (o : Options) (h : Option Path)
    (ho : o.cargoHome = none) (hh : HomeRule cwd ((firstValue p.vars "CARGO_HOME".toList).map OsStr.path) p.home h) :
    EConfig.loadWithOptions p fs parse cwd o = EConfig.loadWithOptions p fs parse cwd (o.withCargoHome h) := by
  have key := cargoHome_of_rule hh
  have h1 : (o.intoContext p cwd).2.cargoHomeOf p cwd = ((o.withCargoHome h).intoContext p cwd).2.cargoHomeOf p cwd := by
    unfold Options.intoContext Options.withCargoHome Cells.cargoHomeOf Options.withEnv
    cases o.env with
    | none => simp [ho, key]
    | some e => simp [ho, key]
  have h2 : (o.intoContext p cwd).1 = ((o.withCargoHome h).intoContext p cwd).1 := by
    obtain ⟨env, rustc, cargo, ch, ht⟩ := o
    cases env <;> rfl
  unfold EConfig.loadWithOptions
  dsimp only
  rw [h1, h2]

/-- The rule covers all cases, in exactly one way. -/
theorem C04_rule_total (cwd : Path) (var home : Option Path) : ∃ h, HomeRule cwd var home h ∧ ∀ h', HomeRule cwd var home h' → h' = h := by
  have main : ∃ h, HomeRule cwd var home h := by
    by_cases hv : var = none ∨ var = some []
    · cases home with
      | none => exact ⟨_, .nothing var hv⟩
      | some home => exact ⟨_, .unset var home hv⟩
    · cases var with
      | none => exact absurd (Or.inl rfl) hv
      | some v =>
        by_cases ha : ∃ r, v = '/' :: r
        · exact ⟨_, .absolute v home ha⟩
        · exact ⟨_, .relative v home (fun e => hv (Or.inr (by rw [e]))) ha⟩
  obtain ⟨h, hh⟩ := main
  refine ⟨h, hh, fun h' hh' => ?_⟩
  cases hh with
  | absolute v _ hv =>
    cases hh' with
    | absolute => rfl
    | relative _ _ _ hn => exact absurd hv hn
    | unset _ _ he => obtain ⟨r, rfl⟩ := hv; rcases he with he | he <;> cases he
    | nothing _ he => obtain ⟨r, rfl⟩ := hv; rcases he with he | he <;> cases he
  | relative v _ hne hv =>
    cases hh' with
    | absolute _ _ hn => exact absurd hn hv
    | relative => rfl
    | unset _ _ he => rcases he with he | he <;> cases he; exact absurd rfl hne
    | nothing _ he => rcases he with he | he <;> cases he; exact absurd rfl hne
  | unset var home he =>
    cases hh' with
    | absolute _ _ hn => obtain ⟨r, rfl⟩ := hn; rcases he with he | he <;> cases he
    | relative _ _ hne => rcases he with he | he <;> cases he; exact absurd rfl hne
    | unset => rfl
  | nothing var he =>
    cases hh' with
    | absolute _ _ hn => obtain ⟨r, rfl⟩ := hn; rcases he with he | he <;> cases he
    | relative _ _ hne => rcases he with he | he <;> cases he; exact absurd rfl hne
    | nothing => rfl

/-- C04: with `ResolveOptions::cargo_home(h)` loading reads the files found by the walk for `h`, unchanged, and nothing else: if that fails
so does loading, and if it succeeds the config is the one made of these files. -/
theorem C04_option (p : ProcEnv) (fs : Fs) (parse : Str → Res Config) (cwd : Path) (o : Options) (h : Option Path) :
    EConfig.loadWithOptions p fs parse cwd (o.withCargoHome h) =
      (loadConfig fs parse cwd h >>= fun de =>
        EConfig.fromUnresolved de ((o.withCargoHome h).intoContext p cwd).1 >>= fun c =>
          .ok (c, ((o.withCargoHome h).intoContext p cwd).2)) := by
  have h1 : ((o.withCargoHome h).intoContext p cwd).2.cargoHomeOf p cwd = (h, ((o.withCargoHome h).intoContext p cwd).2) := by
    unfold Options.intoContext Options.withCargoHome Cells.cargoHomeOf Options.withEnv
    cases o.env <;> rfl
  have h2 : ((o.withCargoHome h).intoContext p cwd).1.currentDir = cwd := by
    unfold Options.intoContext; rfl
  unfold EConfig.loadWithOptions
  dsimp only
  rw [h1, h2]

/-- C04: if all variables are given with `ResolveOptions::env` and the home with `ResolveOptions::cargo_home`, the process environment has
no influence. -/
theorem C04_process_irrelevant (p p' : ProcEnv) (fs : Fs) (parse : Str → Res Config) (cwd : Path) (o : Options) (h : Option Path)
    (vars : List (OsStr × OsStr)) :
    EConfig.loadWithOptions p fs parse cwd ((o.withCargoHome h).withEnv vars) =
      EConfig.loadWithOptions p' fs parse cwd ((o.withCargoHome h).withEnv vars) := rfl

example : HomeRule "/w".toList (some "h".toList) none (some "/w/h".toList) :=
  .relative "h".toList none (by decide) (by rintro ⟨r, h⟩; revert h; simp)
example : HomeRule "/w".toList (some []) (some "/root".toList) (some "/root/.cargo".toList) :=
  .unset _ "/root".toList (Or.inr rfl)
/-- A variable of the process that shadows the same variable given with `ResolveOptions::env`. -/
example : firstValue [(.unicode "CARGO_HOME".toList, .unicode "/p".toList)] "CARGO_HOME".toList = some (.unicode "/p".toList) ∧
    (({} : Options).withEnv [(.unicode "CARGO_HOME".toList, .unicode "/q".toList)]).cargoHome = none := by decide

/-- A relative `CARGO_HOME` of the process. -/
example (fs : Fs) (parse : Str → Res Config) :
    EConfig.loadWithOptions { vars := [(.unicode "CARGO_HOME".toList, .unicode "h".toList)] } fs parse "/w".toList {} =
      EConfig.loadWithOptions { vars := [(.unicode "CARGO_HOME".toList, .unicode "h".toList)] } fs parse "/w".toList
        (({} : Options).withCargoHome (some "/w/h".toList)) :=
  C04_from_process _ _ _ _ _ _ rfl (HomeRule.relative "h".toList none (by decide) (by rintro ⟨r, h⟩; revert h; simp))

example : ∃ h, HomeRule "/w".toList (some "x".toList) (some "/root".toList) h := (C04_rule_total _ _ _).imp fun _ h => h.1

end CC
