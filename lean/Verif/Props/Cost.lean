import Verif.Lemmas.Cost
import Verif.Props.Tools
import Verif.Props.TargetQuery
/-
C79: how many processes a history of queries starts.
-/
namespace CC

variable {w : World} {ts : List Str} {s : Cells}

/-- C79: whatever the tools do and however the fields of the config change in between, all queries of a history together start at
most 8 processes, one for each target asked about and three for each query that fails. -/
theorem C79_processes (w : World) (qs : List (EConfig × Query)) (hts : AsksAbout ts qs) (s : Cells) :
    (afterQueries w qs s).trace.length ≤ s.trace.length + 8 + ts.length + 3 * failedQueries w qs s := by
  have h1 := history_cost w qs hts s
  have h2 : versionCost s ≤ 8 := by
    unfold versionCost
    generalize s.hostTriple.isSome = a
    generalize s.rustcVersion.isSome = b
    generalize s.cargoVersion.isSome = c
    revert a b c
    decide
  have h3 : targetCost ts s ≤ ts.length := List.countP_le_length
  omega

theorem workingCost_le_two (s : Cells) : workingCost s ≤ 2 := by
  unfold workingCost
  generalize s.rustcVersion.isSome = b
  generalize s.cargoVersion.isSome = c
  revert b c
  decide

/-- C79: if cargo tells its version and the host, then two processes, one for each target asked about and one for each query that
fails are enough. -/
theorem C79_working (qs : List (EConfig × Query)) (hts : AsksAbout ts qs) (hs : s.hostTriple = none) (hv : s.cargoVersion = none)
    (hw : ∀ c q n, (c, q) ∈ qs → ∃ h, CargoTells (w.run n (cargoVV c)) h) :
    (afterQueries w qs s).trace.length ≤ s.trace.length + 2 + ts.length + failedQueries w qs s := by
  have h1 := history_working qs hts s (fun _ => hw) (fun _ => hv)
  have h2 := workingCost_le_two s
  have h3 : targetCost ts s ≤ ts.length := List.countP_le_length
  omega

/-- C79: the same whatever the tools do, if the host triple is known, for example because it was given. -/
theorem C79_host_known (w : World) (qs : List (EConfig × Query)) (hts : AsksAbout ts qs) (hs : s.hostTriple ≠ none) :
    (afterQueries w qs s).trace.length ≤ s.trace.length + 2 + ts.length + failedQueries w qs s := by
  have h1 := history_working (w := w) qs hts s (fun h => absurd h hs) (fun h => absurd h hs)
  have h2 := workingCost_le_two s
  have h3 : targetCost ts s ≤ ts.length := List.countP_le_length
  omega

/-- Tools that answer only now and then. -/
def moodyWorld : World :=
  { checks := false
    run := fun n x => if n = 3 ∨ n = 8 ∨ n = 11 then .succeeded (.unicode "release: 1.84.0\nhost: x\n".toList) else .notStarted []
    exist := fun _ _ => false }

/-- The bound of `C79_processes` is attained: three successful queries, eight processes. -/
example : failedQueries moodyWorld [(plainConfig, .cargoVersion), (plainConfig, .rustcVersion), (plainConfig, .hostTriple)] {} = 0 ∧
    (afterQueries moodyWorld [(plainConfig, .cargoVersion), (plainConfig, .rustcVersion), (plainConfig, .hostTriple)] {}).trace.length = 8 := by
  decide +kernel

/-- Tools as they are. -/
def answeringWorld : World :=
  { checks := true
    run := fun _ x => if x.args = ["-vV".toList] then .succeeded (.unicode "release: 1.84.0\nhost: x-y\n".toList)
      else .succeeded (.unicode "unix\n".toList)
    exist := fun _ _ => false }

/-- The hypothesis of `C79_working` holds of them. -/
example (n : Nat) : ∃ h, CargoTells (answeringWorld.run n (cargoVV sampleEasy)) h :=
  ⟨"x-y".toList, (cargoTells_iff (cm := cargoVV sampleEasy)).2
    ⟨"release: 1.84.0\nhost: x-y".toList, ⟨1, 84, 0, false⟩, by rfl, by rfl, by rfl⟩⟩

/-- Queries about two targets. -/
def sampleQueries : List (EConfig × Query) :=
  [(sampleEasy, .linker sampleTriple), (sampleEasy, .rustcVersion), (sampleEasy, .cargoVersion), (sampleEasy, .hostTriple),
    (sampleEasy, .rustflags ⟨"z".toList, none⟩), (sampleEasy, .runner sampleTriple), (sampleEasy, .rustcVersion)]

theorem sample_asks : AsksAbout ["x-y".toList, "z".toList] sampleQueries := by
  intro c q t h ht
  simp only [sampleQueries, List.mem_cons, Prod.mk.injEq, List.not_mem_nil, or_false] at h
  rcases h with ⟨-, rfl⟩ | ⟨-, rfl⟩ | ⟨-, rfl⟩ | ⟨-, rfl⟩ | ⟨-, rfl⟩ | ⟨-, rfl⟩ | ⟨-, rfl⟩ <;> cases ht <;>
    simp [TargetTriple.cliTarget, sampleTriple]

/-- The bound of `C79_working` is attained. -/
example : failedQueries answeringWorld sampleQueries {} = 0 ∧ (afterQueries answeringWorld sampleQueries {}).trace.length = 4 := by
  decide +kernel

/-- The bound of `C79_host_known` is attained. -/
example : (afterQueries answeringWorld sampleQueries { hostTriple := some "x-y".toList }).trace.length = 4 := by decide +kernel

/-- A query that fails after three processes. -/
example : failedQueries { moodyWorld with run := fun _ _ => .notStarted [] } [(plainConfig, .cargoVersion)] {} = 1 ∧
    (afterQueries { moodyWorld with run := fun _ _ => .notStarted [] } [(plainConfig, .cargoVersion)] {}).trace.length = 3 := by
  decide +kernel

/-- The bound for the queries of the sample. -/
example (w : World) : (afterQueries w sampleQueries {}).trace.length ≤ 0 + 8 + 2 + 3 * failedQueries w sampleQueries {} :=
  C79_processes w sampleQueries (ts := ["x-y".toList, "z".toList]) sample_asks {}

end CC
