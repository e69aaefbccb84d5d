import Verif.Spec.EnvSpelling
import Verif.Props.Settings
/-
C97: an entry of `[env]` that only one config file states may be written as a string or as a table.
-/
namespace CC

variable {p p' : ProcEnv} {fs fs' : Fs} {toml toml' : Str → Res Toml} {cwd cwd' : Path} {o o' : Options} {c c' : EConfig} {s s' : Cells}
  {look look' : Str → Option OsStr} {home home' : Option Path} {docs docs' : List (Path × Toml)}

/-- A document that has only this entry. -/
def envEntryDoc (k : Str) (x : Toml) : Toml := .tbl [("env".toList, .tbl [(k, x)])]

theorem saidAt_envEntryDoc (f : Path) (k : Str) (x : Toml) : saidAt ["env".toList, k] [(f, envEntryDoc k x)] = [(f, x)] := by
  simp [saidAt, envEntryDoc, Toml.at, BMap.get]

theorem env_sources {f : Path} {k : Str} {x : Toml} {t : Str} {fo re : Bool} (e : saidAt ["env".toList, k] docs = [(f, x)])
    (hx : EnvEntry x t fo re) :
    (ScalarKey.envValue k).source look docs = some (.str t, .path f) ∧
    ((∃ d, (ScalarKey.envForce k).source look docs = some (.bool true, d)) ↔ fo = true) ∧
    ((∃ d, (ScalarKey.envRelative k).source look docs = some (.bool true, d)) ↔ re = true) := by
  have e := e.trans (saidAt_envEntryDoc f k x).symm
  rw [source_agree (.envValue k) (fun _ _ => rfl) e, source_agree (.envForce k) (fun _ _ => rfl) e,
    source_agree (.envRelative k) (fun _ _ => rfl) e]
  have hk : ∀ ps, (envEntryDoc k x).at ("env".toList :: k :: ps) = x.at ps := fun ps => by simp [envEntryDoc, Toml.at, BMap.get]
  have hflag : ∀ {y : Option Toml} {b : Bool}, FlagIs y b →
      ((∃ d, firstSome [y.map fun x => (x, Definition.path f)] = some (.bool true, d)) ↔ b = true) := by
    rintro y b (rfl | ⟨rfl, rfl⟩)
    · cases b <;> simp [firstSome]
    · simp [firstSome]
  simp only [ScalarKey.source, ScalarKey.consulted, ScalarKey.sources, readEnv, ScalarKey.path, List.map_cons, List.map_nil, hk]
  simp only [reduceCtorEq, if_false, readEnv]
  cases hx with
  | text t =>
    have ht : (envEntryDoc k (.str t)).envIsTable k = some false := by simp only [Toml.envIsTable, hk, Toml.at, Option.map_some]
    rw [ht]
    simp only [Option.some.injEq, Bool.false_eq_true, if_false, hk, Toml.at, Option.map_some, firstSome, true_and]
    simp [firstSome]
  | table l t fo re h1 h2 h3 =>
    have ht : (envEntryDoc k (.tbl l)).envIsTable k = some true := by simp only [Toml.envIsTable, hk, Toml.at, Option.map_some]
    rw [ht]
    simp only [if_true, hk, h1, Option.map_some, firstSome, true_and]
    exact ⟨hflag h2, hflag h3⟩

theorem fromUnresolved_flags (cwd : Path) (e : EnvConfigValue) (fo re : Bool)
    (hf : e.theForce.map Val.val = some true ↔ fo = true) (hr : e.theRelative.map Val.val = some true ↔ re = true) :
    EEnvValue.fromUnresolved cwd e = EEnvValue.fromUnresolved cwd (.table e.theValue (some ⟨fo, none⟩) (some ⟨re, none⟩)) := by
  rw [env_shape]
  generalize e.theValue = v at *
  generalize e.theForce = a at *
  generalize e.theRelative = b at *
  rcases a with _ | ⟨a, ad⟩ <;> rcases b with _ | ⟨b, bd⟩ <;> (try cases a) <;> (try cases b) <;> cases fo <;> cases re <;>
    simp_all [EEnvValue.fromUnresolved, EnvConfigValue.resolve]

/-- The entry behind a loaded config. -/
theorem Behind.env_entry {de : Config} (h : Behind cwd look docs c de) {f : Path} {k : Str} {x : Toml} {t : Str} {fo re : Bool}
    (e : saidAt ["env".toList, k] docs = [(f, x)]) (hx : EnvEntry x t fo re) :
    ∃ y, BMap.get c.env k = some y ∧
      EEnvValue.fromUnresolved cwd (.table ⟨t, some (.path f)⟩ (some ⟨fo, none⟩) (some ⟨re, none⟩)) = .ok y := by
  obtain ⟨s1, s2, s3⟩ := env_sources (look := look) e hx
  have v1 := h.scalar (.envValue k)
  have v2 := h.scalar (.envForce k)
  have v3 := h.scalar (.envRelative k)
  rw [s1] at v1
  have r := mapVals_get (R := fun a b => EEnvValue.fromUnresolved cwd a = .ok b) (fun _ _ h => h) h.env k
  simp only [ScalarKey.get] at v1 v2 v3
  generalize BMap.get de.env k = a at *
  generalize BMap.get c.env k = u at *
  have flag : ∀ (o : Option (Val Bool)) (src : Option (Toml × Definition)) (b : Bool),
      ((o.map (Val.map Atom.bool)).map fun v => (v.val.toml, v.defn)) = src.map (fun x => (x.1, some x.2)) →
      ((∃ d, src = some (.bool true, d)) ↔ b = true) → (o.map Val.val = some true ↔ b = true) := by
    intro o src b h1 h2
    rw [← h2]
    rcases o with _ | ⟨o, od⟩
    · cases src with
      | none => simp
      | some y => cases h1
    · cases src with
      | none => cases h1
      | some y =>
        obtain ⟨y1, y2⟩ := y
        simp only [Option.map_some, Val.map, Atom.toml, Option.some.injEq, Prod.mk.injEq] at h1 ⊢
        rw [← h1.1]
        simp
  cases r with
  | none => cases v1
  | @some a u r =>
    simp only [Option.bind_some] at v2 v3
    have hv : a.theValue = ⟨t, some (.path f)⟩ := by
      simp only [Option.map_some, Val.map, Atom.toml, Option.some.injEq, Prod.mk.injEq, Toml.str.injEq] at v1
      rw [← v1.1, ← v1.2]
    refine ⟨u, rfl, ?_⟩
    rw [← hv, ← fromUnresolved_flags cwd a fo re (flag _ _ _ v2 s2) (flag _ _ _ v3 s3)]
    exact r

/-- C97: if one file states an entry of `[env]`, it is the same whether it is written as a string or as a table, and whether flags that are
`false` are written out. -/
theorem C97_env (h : Loads p fs toml cwd o look home docs c s) (h' : Loads p' fs' toml' cwd o' look' home' docs' c' s')
    {f : Path} {k : Str} {x x' : Toml} {t : Str} {fo re : Bool} (e : saidAt ["env".toList, k] docs = [(f, x)])
    (e' : saidAt ["env".toList, k] docs' = [(f, x')]) (hx : EnvEntry x t fo re) (hx' : EnvEntry x' t fo re) :
    BMap.get c.env k = BMap.get c'.env k := by
  obtain ⟨de, d⟩ := h.behind
  obtain ⟨de', d'⟩ := h'.behind
  obtain ⟨y, y1, y2⟩ := d.env_entry e hx
  obtain ⟨z, z1, z2⟩ := d'.env_entry e' hx'
  rw [y2] at z2
  rw [y1, z1, Res.ok.inj z2]

/-- C97: and this is what it is, unless the value is a path relative to the file. -/
theorem C97_value (h : Loads p fs toml cwd o look home docs c s) {f : Path} {k : Str} {x : Toml} {t : Str} {fo : Bool}
    (e : saidAt ["env".toList, k] docs = [(f, x)]) (hx : EnvEntry x t fo false) :
    BMap.get c.env k = some { value := t, force := fo, relative := false } := by
  obtain ⟨de, d⟩ := h.behind
  obtain ⟨y, y1, y2⟩ := d.env_entry e hx
  rw [y1, ← Res.ok.inj y2]
  rfl

/-! ### a sample -/

def sampleEnvDoc (x : Toml) : Toml := .tbl [("env".toList, .tbl [("V".toList, x)])]
def sampleEnvTable : Toml := .tbl [("value".toList, .str "a b".toList), ("relative".toList, .bool false)]

/-- The nearer file has the entry, the farther one is empty. -/
def envSpellingToml (x : Toml) (s : Str) : Res Toml :=
  if s = "near".toList then .ok (sampleEnvDoc x) else if s = "far".toList then .ok (.tbl []) else .err (.toml [])

theorem sample_env_distinct {x : Toml} (hx : x.DistinctKeys) (s : Str) (t : Toml) (h : envSpellingToml x s = .ok t) : t.DistinctKeys := by
  unfold envSpellingToml at h
  split at h
  · cases h
    refine distinct_tbl (by simp) fun y hy => ?_
    cases List.mem_singleton.1 hy
    refine distinct_tbl (by simp) fun y hy => ?_
    cases List.mem_singleton.1 hy
    exact hx
  · split at h
    · cases h
      exact distinct_tbl (by simp) fun y hy => by cases hy
    · cases h

/-- Two loads as in the theorems: a string, and a table with a flag written out. -/
example : ∃ look look' docs docs' c c' s s' f x x',
    Loads sampleProc sampleFs (envSpellingToml (.str "a b".toList)) "/w/p".toList { cargoHome := some none } look none docs c s ∧
    Loads sampleProc sampleFs (envSpellingToml sampleEnvTable) "/w/p".toList { cargoHome := some none } look' none docs' c' s' ∧
    saidAt ["env".toList, "V".toList] docs = [(f, x)] ∧ saidAt ["env".toList, "V".toList] docs' = [(f, x')] ∧ x ≠ x' ∧
    EnvEntry x "a b".toList false false ∧ EnvEntry x' "a b".toList false false := by
  obtain ⟨look, c, s, h⟩ := sample_load (sample_env_distinct (x := .str "a b".toList) (distinct_leaf rfl)) (if_pos rfl)
    ((if_neg (by decide)).trans (if_pos rfl)) (by decide +kernel)
  have hd : sampleEnvTable.DistinctKeys := by
    refine distinct_tbl (by decide) fun y hy => distinct_leaf ?_
    simp only [List.mem_cons, List.not_mem_nil, or_false] at hy
    rcases hy with rfl | rfl <;> rfl
  obtain ⟨look', c', s', h'⟩ := sample_load (sample_env_distinct hd) (if_pos rfl) ((if_neg (by decide)).trans (if_pos rfl))
    (by decide +kernel)
  exact ⟨look, look', _, _, c, c', s, s', "/w/p/.cargo/config".toList, _, _, h, h', rfl, rfl, (fun e => by cases e), .text _,
    .table _ _ _ _ rfl (.inr ⟨rfl, rfl⟩) (.inl rfl)⟩

/-- Two files that both have the entry as a table; the farther one forces it. -/
def envTwiceToml (near : List (Str × Toml)) (s : Str) : Res Toml :=
  .ok (sampleEnvDoc (.tbl (("value".toList, .str "a".toList) :: if s = "near".toList then near else [("force".toList, .bool true)])))

/-- With two files it does matter whether a flag that is `false` is written out: it then overrides that of the farther file. -/
example : (EConfig.loadWithOptions sampleProc sampleFs (fun s => envTwiceToml [] s >>= Config.de) "/w/p".toList
      { cargoHome := some none }).toOption.map (fun r => (BMap.get r.1.env "V".toList).map (·.force)) = some (some true) ∧
    (EConfig.loadWithOptions sampleProc sampleFs (fun s => envTwiceToml [("force".toList, .bool false)] s >>= Config.de) "/w/p".toList
      { cargoHome := some none }).toOption.map (fun r => (BMap.get r.1.env "V".toList).map (·.force)) = some (some false) := by
  decide +kernel

end CC
