import Verif.Lemmas.SerdeOnly
import Verif.Lemmas.SerdeStable
/-
C52, C53, C54: configurations as TOML documents.
-/
namespace CC

/-! ### C52: reading, writing, round trip -/

/-- Reading: a config read from a document has at every key exactly what the document has at the key's path, and no setting gets
a value from anywhere else.  (TOML documents have no duplicate keys.) -/
theorem C52_reads (t : Toml) (c : Config) (h : Config.de t = .ok c) (hd : t.DistinctKeys) :
    (∀ k : ScalarKey, t.at (k.path (envShape c)) = (k.get c).map fun v => v.val.toml) ∧
    (∀ k : ListKey, OptionRel (fun x (l : Repr' × List (Val Str)) => TomlList k.splits x l.1 (l.2.map Val.val))
      (t.at k.path) (k.get c)) ∧
    (∀ k : ProgKey, OptionRel (fun x (l : Repr' × List (Val Str)) => TomlList true x l.1 (l.2.map Val.val))
      (t.at k.path) (k.get c)) ∧
    (∀ k : TableKey, k.present c = (t.at k.path).isSome) ∧
    ∀ k, envShape c k = some true ↔ ∃ l, t.at ["env".toList, k] = some (.tbl l) := by
  refine ⟨scalar_read h hd, list_read h hd, prog_read h hd, entry_read h hd, fun k => ?_⟩
  rw [envShape_read h hd]
  cases t.at ["env".toList, k] with
  | none => simp
  | some u => cases u <;> simp

/-- What holds of every config that was read: maps are ordered, numbers in range, lists spelled as a string consist of words. -/
theorem C52_readable (t : Toml) (c : Config) (h : Config.de t = .ok c) : c.Readable := readable_read h

/-- Writing: every setting is at its path in the written document, and what is not set is absent; flags are arrays, other lists
and commands are spelled as they were. -/
theorem C52_writes (c : Config) :
    (∀ k : ScalarKey, c.ser.at (k.path (envShape c)) = (k.get c).map fun v => v.val.toml) ∧
    (∀ k : ListKey, k.get c = none → c.ser.at k.path = none) ∧
    (∀ (k : ListKey) (r : Repr') (l : List (Val Str)), k.get c = some (r, l) → r = .array ∨ k.isFlags = true →
      c.ser.at k.path = some (.arr (l.map fun v => .str v.val))) ∧
    (∀ (k : ListKey) (l : List (Val Str)), k.get c = some (.string, l) → k.isFlags = false → (∀ v ∈ l, v.val ≠ []) →
      c.ser.at k.path = some (.str (joinWith ' ' (l.map Val.val)))) ∧
    (∀ k : ProgKey, c.ser.at k.path = (k.get c).map fun x => match x.1 with
      | .array => .arr (x.2.map fun v => .str v.val)
      | .string => .str (joinWith ' ' (x.2.map Val.val))) ∧
    ∀ k : TableKey, (c.ser.at k.path).isSome = k.present c := by
  refine ⟨scalar_write c, ?_, ?_, ?_, ?_, entry_write c⟩
  · intro k h; rw [list_write, h]; rfl
  · intro k r l h hr
    rw [list_write, h, Option.map_some, ListKey.written]
    rcases hr with rfl | hr
    · rw [ite_self]; rfl
    · rw [hr]; rfl
  · intro k l h hf hne
    rw [list_write, h, Option.map_some, ListKey.written, hf]
    simp only [Bool.false_eq_true, if_false]
    rw [pushWords_eq l hne]
  · intro k; rw [prog_write]; rfl

/-- Writing: nothing else is written.  What is not a table is a setting, and tables are there only for sections, for the entries of `[env]`,
`[registries]` and `[target]`, and for `[term.progress]`. -/
theorem C52_writes_only (c : Config) (he : c.env.Sorted) (p : List Str) (v : Toml) (h : c.ser.at p = some v) :
    ((∀ l, v ≠ .tbl l) ∧ ((∃ k : ScalarKey, p = k.path (envShape c)) ∨ (∃ k : ListKey, p = k.path) ∨ ∃ k : ProgKey, p = k.path)) ∨
    (∃ l, v = .tbl l) ∧ (p.length ≤ 1 ∨ (∃ k : TableKey, p = k.path) ∨ p = ["term".toList, "progress".toList]) :=
  Config.ser_only he p v h

/-- What it says of a sample. -/
example : (Config.ser { build := { jobs := some ⟨3, none⟩ } }).at ["build".toList, "jobs".toList] = some (.int 3) := rfl

/-- Round trip: a config that was read can be written and read again; every setting has the same value and every list and command
the same texts and spelling, except that flags are spelled as an array afterwards.  Locations are not written. -/
theorem C52_round_trip (c : Config) (h : c.Readable) :
    ∃ c', Config.de c.ser = .ok c' ∧
      (∀ k : ScalarKey, (k.get c').map Val.val = (k.get c).map Val.val) ∧
      (∀ k : ListKey, (k.get c').map listTexts
        = (k.get c).map fun x => (if k.isFlags then .array else x.1, x.2.map Val.val)) ∧
      (∀ k : ProgKey, (k.get c').map listTexts = (k.get c).map listTexts) ∧
      (∀ k : TableKey, k.present c' = k.present c) ∧ (∀ k, envShape c' k = envShape c k) ∧ c'.Readable :=
  ⟨c.bare, Config.de_ser h, scalar_bare c, list_bare c, prog_bare c, entry_bare c, envShape_bare c,
    readable_read (Config.de_ser h)⟩

/-- What is written is stable: reading the written document and writing it again gives the same document. -/
theorem C52_stable (c c' : Config) (h : c.Readable) (h' : Config.de c.ser = .ok c') : c'.ser = c.ser := by
  rw [Config.de_ser h] at h'
  cases h'
  exact Config.ser_bare c

/-- A document in other words (flags as a string, an unknown key) is written in the usual ones, and stays so. -/
example : ∃ c c', Config.de (.tbl [("build".toList, .tbl [("x".toList, .int 1), ("rustflags".toList, .str "-g".toList)])]) = .ok c ∧
    Config.de c.ser = .ok c' ∧ c'.ser = c.ser :=
  have h : ∃ c, Config.de (.tbl [("build".toList, .tbl [("x".toList, .int 1), ("rustflags".toList, .str "-g".toList)])]) = .ok c := ⟨_, rfl⟩
  let ⟨c, hc⟩ := h
  let ⟨c', h', _⟩ := C52_round_trip c (C52_readable _ c hc)
  ⟨c, c', hc, h', C52_stable c c' (C52_readable _ c hc) h'⟩

/-- Consequence of flags being written as arrays: reading a document, writing it and merging a config with its own written form
fails if the flags were spelled as a string. -/
theorem C52_flags_respelled : ∃ (t : Toml) (c c' : Config), Config.de t = .ok c ∧ Config.de c.ser = .ok c' ∧
    ShapeConflict c c' := by
  refine ⟨.tbl [("build".toList, .tbl [("rustflags".toList, .str "-g".toList)])],
    { build := { rustflags := some ⟨[⟨"-g".toList, none⟩], .string⟩ } },
    { build := { rustflags := some ⟨[⟨"-g".toList, none⟩], .array⟩ } }, ?_, ?_, ?_⟩
  · rfl
  · rfl
  · exact .list .buildRustflags .string .array _ _ rfl rfl (by decide)

-- non-vacuity: a document with a map, both spellings, an integer, an enum and nested tables
/-- A sample document. -/
def sampleDoc : Toml := .tbl [("alias".toList, .tbl [("b".toList, .str "build --all".toList), ("a".toList, .arr [.str "x y".toList])]),
  ("build".toList, .tbl [("jobs".toList, .int (-1)), ("rustflags".toList, .str "-g  -O".toList), ("unknown".toList, .other)]),
  ("env".toList, .tbl [("E".toList, .tbl [("value".toList, .str "v".toList), ("force".toList, .bool true)])]),
  ("term".toList, .tbl [("progress".toList, .tbl [("when".toList, .str "never".toList), ("width".toList, .int 80)])])]

example : ∃ c, Config.de sampleDoc = .ok c ∧ c.term.progress.width = some ⟨80, none⟩ ∧
    BMap.get c.alias "b".toList = some ⟨[⟨"build".toList, none⟩, ⟨"--all".toList, none⟩], .string⟩ :=
  ⟨_, rfl, rfl, rfl⟩

/-! ### C53: sections are omitted exactly when empty -/

/-- A top-level key is absent from the written document exactly if no setting below it is set (and it has no entry). -/
theorem C53_section (c : Config) (s : Str) :
    c.ser.at [s] = none ↔
      (∀ k : ScalarKey, (k.path (envShape c)).head? = some s → k.get c = none) ∧
      (∀ k : ListKey, k.path.head? = some s → k.get c = none) ∧
      (∀ k : ProgKey, k.path.head? = some s → k.get c = none) ∧
      (∀ k : TableKey, k.path.head? = some s → k.present c = false) := by
  constructor
  · intro h
    have sub : ∀ {p : List Str}, p.head? = some s → c.ser.at p = none := by
      intro p hp
      cases p with
      | nil => cases hp
      | cons x p =>
        simp only [List.head?_cons, Option.some.injEq] at hp
        subst hp
        rw [show x :: p = [x] ++ p from rfl, Toml.at_append, h]; rfl
    refine ⟨fun k hk => ?_, fun k hk => ?_, fun k hk => ?_, fun k hk => ?_⟩
    · have := scalar_write c k
      rw [sub hk] at this
      exact Option.map_eq_none_iff.1 this.symm
    · have := list_write c k
      rw [sub hk] at this
      exact Option.map_eq_none_iff.1 this.symm
    · have := prog_write c k
      rw [sub hk] at this
      exact Option.map_eq_none_iff.1 this.symm
    · have := entry_write c k
      rw [sub hk] at this
      exact this.symm
  · rintro ⟨h1, h2, h3, h4⟩
    have noEntry : ∀ {V : Type} {m : BMap V}, (∀ k, (BMap.get m k).isSome = false) → m.isEmpty = true := by
      intro V m hm
      cases m with
      | nil => rfl
      | cons e m =>
        have := hm e.1
        simp [BMap.get] at this
    have un : ∀ {α : Type} {o : Option (Val α)} {g : α → Atom}, o.map (Val.map g) = none → o = none :=
      fun h => Option.map_eq_none_iff.1 h
    obtain ⟨l, hl, g_alias, g_build, g_doc, g_env, g_fir, g_new, g_http, g_net, g_regs, g_reg, g_target, g_term⟩ :=
      Config.ser_get c
    by_cases e1 : s = "alias".toList
    · subst e1
      rw [hl, Toml.at_tbl1, g_alias, if_pos (noEntry fun k => h4 (.alias k) rfl)]
    by_cases e2 : s = "build".toList
    · subst e2
      rw [hl, Toml.at_tbl1, g_build, if_pos]
      rw [BuildConfig.isNone_iff]
      exact ⟨un (h1 .buildJobs rfl), un (h1 .buildRustc rfl), un (h1 .buildRustcWrapper rfl),
        un (h1 .buildRustcWorkspaceWrapper rfl), un (h1 .buildRustdoc rfl), Option.map_eq_none_iff.1 (h2 .buildTarget rfl),
        un (h1 .buildTargetDir rfl), Option.map_eq_none_iff.1 (h2 .buildRustflags rfl),
        Option.map_eq_none_iff.1 (h2 .buildRustdocflags rfl), un (h1 .buildIncremental rfl), un (h1 .buildDepInfoBasedir rfl)⟩
    by_cases e3 : s = "doc".toList
    · subst e3
      rw [hl, Toml.at_tbl1, g_doc, if_pos]
      rw [DocConfig.isNone_iff]
      exact Option.map_eq_none_iff.1 (h3 .docBrowser rfl)
    by_cases e4 : s = "env".toList
    · subst e4
      rw [hl, Toml.at_tbl1, g_env, if_pos (noEntry fun k => h4 (.env k) rfl)]
    by_cases e5 : s = "future-incompat-report".toList
    · subst e5
      rw [hl, Toml.at_tbl1, g_fir, if_pos]
      rw [FutureIncompatReportConfig.isNone_iff]
      exact un (h1 .futureIncompatReportFrequency rfl)
    by_cases e6 : s = "cargo-new".toList
    · subst e6
      rw [hl, Toml.at_tbl1, g_new, if_pos]
      rw [CargoNewConfig.isNone_iff]
      exact un (h1 .cargoNewVcs rfl)
    by_cases e7 : s = "http".toList
    · subst e7
      rw [hl, Toml.at_tbl1, g_http, if_pos]
      rw [HttpConfig.isNone_iff]
      exact ⟨un (h1 .httpDebug rfl), un (h1 .httpProxy rfl), un (h1 .httpTimeout rfl), un (h1 .httpCainfo rfl),
        un (h1 .httpCheckRevoke rfl), un (h1 .httpLowSpeedLimit rfl), un (h1 .httpMultiplexing rfl), un (h1 .httpUserAgent rfl)⟩
    by_cases e8 : s = "net".toList
    · subst e8
      rw [hl, Toml.at_tbl1, g_net, if_pos]
      rw [NetConfig.isNone_iff]
      exact ⟨un (h1 .netRetry rfl), un (h1 .netGitFetchWithCli rfl), un (h1 .netOffline rfl)⟩
    by_cases e9 : s = "registries".toList
    · subst e9
      rw [hl, Toml.at_tbl1, g_regs, if_pos (noEntry fun k => h4 (.registries k) rfl)]
    by_cases e10 : s = "registry".toList
    · subst e10
      rw [hl, Toml.at_tbl1, g_reg, if_pos]
      rw [RegistryConfig.isNone_iff]
      exact ⟨un (h1 .registryDefault rfl), un (h1 .registryToken rfl)⟩
    by_cases e11 : s = "target".toList
    · subst e11
      rw [hl, Toml.at_tbl1, g_target, if_pos (noEntry fun k => h4 (.target k) rfl)]
    by_cases e12 : s = "term".toList
    · subst e12
      rw [hl, Toml.at_tbl1, g_term, if_pos]
      rw [TermConfig.isNone_iff]
      exact ⟨un (h1 .termQuiet rfl), un (h1 .termVerbose rfl), un (h1 .termColor rfl), un (h1 .termProgressWhen rfl),
        un (h1 .termProgressWidth rfl)⟩
    rw [Config.ser, Toml.at_tbl1]
    simp only [BMap.get_append, get_serSection, Ne.symm e1, Ne.symm e2, Ne.symm e3, Ne.symm e4, Ne.symm e5, Ne.symm e6,
      Ne.symm e7, Ne.symm e8, Ne.symm e9, Ne.symm e10, Ne.symm e11, Ne.symm e12, if_false, Option.or]

/-- The sub-table `term.progress` is absent exactly if neither of its settings is set. -/
theorem C53_progress (c : Config) :
    c.ser.at ["term".toList, "progress".toList] = none ↔
      ScalarKey.get c .termProgressWhen = none ∧ ScalarKey.get c .termProgressWidth = none := by
  obtain ⟨l, hl, g_alias, g_build, g_doc, g_env, g_fir, g_new, g_http, g_net, g_regs, g_reg, g_target, g_term⟩ :=
    Config.ser_get c
  obtain ⟨l', hl', _, _, _, g⟩ := TermConfig.ser_get c.term
  have key : c.ser.at ["term".toList, "progress".toList]
      = if c.term.progress.isNone then none else some c.term.progress.ser := by
    rw [hl]
    refine at_ser_section g_term (fun hn => ?_) ?_
    · obtain ⟨_, _, _, h3, h4⟩ := (TermConfig.isNone_iff _).1 hn
      rw [if_pos ((TermProgress.isNone_iff _).2 ⟨h3, h4⟩)]
    · rw [hl', Toml.at_tbl1, g]
  rw [key]
  have : (if c.term.progress.isNone then none else some c.term.progress.ser) = none ↔ c.term.progress.isNone = true := by
    cases c.term.progress.isNone <;> simp
  rw [this, TermProgress.isNone_iff]
  exact ⟨fun h => ⟨Option.map_eq_none_iff.2 h.1, Option.map_eq_none_iff.2 h.2⟩,
    fun h => ⟨Option.map_eq_none_iff.1 h.1, Option.map_eq_none_iff.1 h.2⟩⟩

/-- The written document is empty exactly if nothing is set. -/
theorem C53_empty (c : Config) :
    c.ser = .tbl [] ↔ (∀ k : ScalarKey, k.get c = none) ∧ (∀ k : ListKey, k.get c = none) ∧
      (∀ k : ProgKey, k.get c = none) ∧ (∀ k : TableKey, k.present c = false) := by
  have noPath : ∀ (f : Str → Option Bool) (k : ScalarKey), ∃ s, (k.path f).head? = some s := by
    intro f k
    cases k
    all_goals first
      | exact ⟨_, rfl⟩
      | (simp only [ScalarKey.path]; split <;> exact ⟨_, rfl⟩)
  constructor
  · intro h
    have sec : ∀ s, c.ser.at [s] = none := by intro s; rw [h, Toml.at_tbl1]; rfl
    refine ⟨fun k => ?_, fun k => ?_, fun k => ?_, fun k => ?_⟩
    · obtain ⟨s, hs⟩ := noPath (envShape c) k
      exact ((C53_section c s).1 (sec s)).1 k hs
    · cases k <;> exact ((C53_section c _).1 (sec _)).2.1 _ rfl
    · cases k <;> exact ((C53_section c _).1 (sec _)).2.2.1 _ rfl
    · cases k <;> exact ((C53_section c _).1 (sec _)).2.2.2 _ rfl
  · rintro ⟨h1, h2, h3, h4⟩
    have sec : ∀ s, c.ser.at [s] = none := fun s =>
      (C53_section c s).2 ⟨fun k _ => h1 k, fun k _ => h2 k, fun k _ => h3 k, fun k _ => h4 k⟩
    obtain ⟨l, hl, _⟩ := Config.ser_get c
    rw [hl] at sec ⊢
    cases l with
    | nil => rfl
    | cons e l =>
      have := sec e.1
      rw [Toml.at_tbl1] at this
      simp [BMap.get] at this

example : ({} : Config).ser = .tbl [] := rfl
example : ({ net := { offline := some ⟨false, none⟩ } } : Config).ser
    = .tbl [("net".toList, .tbl [("offline".toList, .bool false)])] := rfl

/-! ### C54: spellings of enumerations -/

/-- The documented spellings of `cargo-new.vcs`. -/
def vcsSpelling (s : String) (v : Vcs) : Prop :=
  (s, v) ∈ [("git", Vcs.git), ("hg", .mercurial), ("pijul", .pijul), ("fossil", .fossil), ("none", .none)]

/-- The documented spellings of `registries.*.protocol`. -/
def protocolSpelling (s : String) (v : Protocol) : Prop := (s, v) ∈ [("git", Protocol.git), ("sparse", .sparse)]

/-- The documented spellings of `term.color`. -/
def colorSpelling (s : String) (v : Color) : Prop := (s, v) ∈ [("auto", Color.auto), ("always", .always), ("never", .never)]

/-- The documented spellings of `term.progress.when`. -/
def whenSpelling (s : String) (v : When) : Prop := (s, v) ∈ [("auto", When.auto), ("always", .always), ("never", .never)]

/-- The documented spellings of `future-incompat-report.frequency`. -/
def frequencySpelling (s : String) (v : Frequency) : Prop := (s, v) ∈ [("always", Frequency.always), ("never", .never)]

/-- Version control systems: the accepted strings are exactly the documented ones, both from an environment variable (`FromStr`)
and in a file; writing gives the spelling that was read. -/
theorem C54_vcs (s : String) (v : Vcs) :
    (Vcs.fromStr s.toList = .ok v ↔ vcsSpelling s v) ∧ (Vcs.de (.str s.toList) = .ok v ↔ vcsSpelling s v) ∧
    (v.asStr = s.toList ↔ vcsSpelling s v) ∧ (v.serName = s.toList ↔ vcsSpelling s v) := by
  refine ⟨?_, ?_, ?_, ?_⟩
  · unfold Vcs.fromStr vcsSpelling
    simp only [String.toList_inj]
    cases v <;> (repeat' split) <;> simp_all
  · unfold Vcs.de vcsSpelling
    simp only [String.toList_inj]
    cases v <;> (repeat' split) <;> simp_all [deErr]
  · unfold vcsSpelling
    cases v <;> simp [Vcs.asStr, eq_comm, ← String.toList_inj]
  · unfold vcsSpelling
    cases v <;> simp [Vcs.serName, eq_comm, ← String.toList_inj]

/-- Registry protocols (which have no `as_str`). -/
theorem C54_protocol (s : String) (v : Protocol) :
    (Protocol.fromStr s.toList = .ok v ↔ protocolSpelling s v) ∧
    (Protocol.de (.str s.toList) = .ok v ↔ protocolSpelling s v) ∧ (v.serName = s.toList ↔ protocolSpelling s v) := by
  refine ⟨?_, ?_, ?_⟩
  · unfold Protocol.fromStr protocolSpelling
    simp only [String.toList_inj]
    cases v <;> (repeat' split) <;> simp_all
  · unfold Protocol.de protocolSpelling
    simp only [String.toList_inj]
    cases v <;> (repeat' split) <;> simp_all [deErr]
  · unfold protocolSpelling
    cases v <;> simp [Protocol.serName, eq_comm, ← String.toList_inj]

/-- Colors. -/
theorem C54_color (s : String) (v : Color) :
    (Color.fromStr s.toList = .ok v ↔ colorSpelling s v) ∧ (Color.de (.str s.toList) = .ok v ↔ colorSpelling s v) ∧
    (v.asStr = s.toList ↔ colorSpelling s v) ∧ (v.serName = s.toList ↔ colorSpelling s v) := by
  refine ⟨?_, ?_, ?_, ?_⟩
  · unfold Color.fromStr colorSpelling
    simp only [String.toList_inj]
    cases v <;> (repeat' split) <;> simp_all
  · unfold Color.de colorSpelling
    simp only [String.toList_inj]
    cases v <;> (repeat' split) <;> simp_all [deErr]
  · unfold colorSpelling
    cases v <;> simp [Color.asStr, eq_comm, ← String.toList_inj]
  · unfold colorSpelling
    cases v <;> simp [Color.serName, eq_comm, ← String.toList_inj]

/-- When to show progress. -/
theorem C54_when (s : String) (v : When) :
    (When.fromStr s.toList = .ok v ↔ whenSpelling s v) ∧ (When.de (.str s.toList) = .ok v ↔ whenSpelling s v) ∧
    (v.asStr = s.toList ↔ whenSpelling s v) ∧ (v.serName = s.toList ↔ whenSpelling s v) := by
  refine ⟨?_, ?_, ?_, ?_⟩
  · unfold When.fromStr whenSpelling
    simp only [String.toList_inj]
    cases v <;> (repeat' split) <;> simp_all
  · unfold When.de whenSpelling
    simp only [String.toList_inj]
    cases v <;> (repeat' split) <;> simp_all [deErr]
  · unfold whenSpelling
    cases v <;> simp [When.asStr, eq_comm, ← String.toList_inj]
  · unfold whenSpelling
    cases v <;> simp [When.serName, eq_comm, ← String.toList_inj]

/-- Frequencies. -/
theorem C54_frequency (s : String) (v : Frequency) :
    (Frequency.fromStr s.toList = .ok v ↔ frequencySpelling s v) ∧
    (Frequency.de (.str s.toList) = .ok v ↔ frequencySpelling s v) ∧
    (v.asStr = s.toList ↔ frequencySpelling s v) ∧ (v.serName = s.toList ↔ frequencySpelling s v) := by
  refine ⟨?_, ?_, ?_, ?_⟩
  · unfold Frequency.fromStr frequencySpelling
    simp only [String.toList_inj]
    cases v <;> (repeat' split) <;> simp_all
  · unfold Frequency.de frequencySpelling
    simp only [String.toList_inj]
    cases v <;> (repeat' split) <;> simp_all [deErr]
  · unfold frequencySpelling
    cases v <;> simp [Frequency.asStr, eq_comm, ← String.toList_inj]
  · unfold frequencySpelling
    cases v <;> simp [Frequency.serName, eq_comm, ← String.toList_inj]

example : vcsSpelling "hg" .mercurial := by simp [vcsSpelling]

/-! ### The theorems applied to the sample -/

/-- C52: the sample is read, so that it is readable; written and read again it has the same settings. -/
example : ∃ c c', Config.de sampleDoc = .ok c ∧ c.Readable ∧ Config.de c.ser = .ok c' ∧
    (∀ k : ScalarKey, (k.get c').map Val.val = (k.get c).map Val.val) :=
  have h : ∃ c, Config.de sampleDoc = .ok c := ⟨_, rfl⟩
  let ⟨c, hc⟩ := h
  let ⟨c', h', hs, _⟩ := C52_round_trip c (C52_readable _ c hc)
  ⟨c, c', hc, C52_readable _ c hc, h', hs⟩

/-- The key that is unknown makes no difference, and the flags are an array of the words afterwards. -/
example : ∃ c, Config.de sampleDoc = .ok c ∧
    c.ser.at ["build".toList, "rustflags".toList] = some (.arr [.str "-g".toList, .str "-O".toList]) ∧
    c.ser.at ["build".toList, "unknown".toList] = none ∧ c.ser.at ["alias".toList, "b".toList] = some (.str "build --all".toList) :=
  ⟨_, rfl, rfl, rfl, rfl⟩

/-- C53: sections of the sample that are written, and one that is not. -/
example : ∃ c, Config.de sampleDoc = .ok c ∧ c.ser.at ["net".toList] = none ∧ c.ser.at ["build".toList] ≠ none ∧
    c.ser.at ["term".toList, "progress".toList] ≠ none := ⟨_, rfl, rfl, nofun, nofun⟩

example : (({ term := { verbose := some ⟨true, none⟩ } } : Config).ser).at ["term".toList, "progress".toList] = none :=
  (C53_progress _).2 ⟨rfl, rfl⟩

/-- C54: the spelling is case sensitive, and that of the Rust name is not accepted. -/
example : Vcs.fromStr "hg".toList = .ok .mercurial ∧ Vcs.fromStr "mercurial".toList ≠ .ok .mercurial ∧
    Color.de (.str "Auto".toList) ≠ .ok .auto ∧ When.fromStr "always".toList = .ok .always ∧
    Protocol.fromStr "sparse".toList = .ok .sparse ∧ Frequency.fromStr "auto".toList ≠ .ok .always := by
  rw [ne_eq, ne_eq, ne_eq, (C54_vcs "hg" _).1, (C54_vcs "mercurial" _).1, (C54_color "Auto" _).2.1, (C54_when "always" _).1,
    (C54_protocol "sparse" _).1, (C54_frequency "auto" _).1]
  unfold vcsSpelling colorSpelling whenSpelling protocolSpelling frequencySpelling
  decide

end CC
