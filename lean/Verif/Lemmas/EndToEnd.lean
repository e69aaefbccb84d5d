import Verif.Spec.EndToEnd
import Verif.Lemmas.SerdeRead
import Verif.Lemmas.SerdeShape
import Verif.Lemmas.Target
import Verif.Props.Resolve
import Verif.Props.Walk
/-
Lemmas for C57: the composition of the walk, reading, merging, the environment and resolution.
-/
namespace CC

variable {p : ProcEnv} {fs : Fs} {toml : Str → Res Toml} {cwd : Path} {o : Options} {c : EConfig} {s : Cells}
  {look : Str → Option OsStr} {home : Option Path} {docs : List (Path × Toml)}

/-- The document was read as the config. -/
def ReadAs (x : Path × Config) (y : Path × Toml) : Prop := x.1 = y.1 ∧ Config.de y.2 = .ok x.2 ∧ y.2.DistinctKeys

theorem readAs_of_same : ∀ {raws : List (Path × Config)} {docs : List (Path × Toml)}, raws.map Prod.fst = docs.map Prod.fst →
    (∀ f raw, (f, raw) ∈ raws → ∃ text, fs.read f = .ok text ∧ (toml text >>= Config.de) = .ok raw) →
    (∀ f t, (f, t) ∈ docs → ∃ text, fs.read f = .ok text ∧ toml text = .ok t) →
    (∀ s t, toml s = .ok t → t.DistinctKeys) → ListRel ReadAs raws docs := by
  intro raws
  induction raws with
  | nil =>
    intro docs h1 _ _ _
    cases docs with
    | nil => exact .nil
    | cons _ _ => cases h1
  | cons x raws ih =>
    intro docs h1 h2 h3 h4
    cases docs with
    | nil => cases h1
    | cons y docs =>
      obtain ⟨f, raw⟩ := x
      obtain ⟨g, t⟩ := y
      simp only [List.map_cons, List.cons.injEq] at h1
      obtain ⟨e, h1⟩ := h1
      subst e
      obtain ⟨t1, r1, p1⟩ := h2 f raw (by simp)
      obtain ⟨t2, r2, p2⟩ := h3 f t (by simp)
      rw [r1] at r2
      cases Res.ok.inj r2
      rw [p2] at p1
      exact .cons ⟨rfl, p1, h4 _ _ p2⟩ (ih h1 (fun f r h => h2 f r (by simp [h])) (fun f r h => h3 f r (by simp [h])) h4)

theorem env_unique {env : Env} (he : EnvOf p o look) (henv : env = (o.intoContext p cwd).1.env) : Env.get env = look := by
  subst henv
  unfold EnvOf at he
  unfold Options.intoContext
  cases ho : o.env with
  | some e =>
    rw [ho] at he
    simp only [ho, Option.isNone_some, Bool.false_eq_true, if_false, Option.getD_some]
    exact he.symm
  | none =>
    rw [ho] at he
    simp only [ho, Option.isNone_none, if_true, Options.withEnv, Option.getD_some]
    funext n
    by_cases hn : CargoVariable n
    · rw [C18_lookup _ hn, (he n).1 hn]
    · rw [C18_dropped _ hn, (he n).2 hn]

theorem env_distinct (hd : ∀ e, o.env = some e → DistinctKeys e) : DistinctKeys (o.intoContext p cwd).1.env := by
  unfold Options.intoContext
  cases ho : o.env with
  | some e =>
    simp only [ho, Option.isNone_some, Bool.false_eq_true, if_false, Option.getD_some]
    exact hd e ho
  | none =>
    simp only [ho, Option.isNone_none, if_true, Options.withEnv, Option.getD_some]
    exact C18_map _

theorem load_home (hh : HomeOf p o cwd home) (parse : Str → Res Config) :
    EConfig.loadWithOptions p fs parse cwd o = EConfig.loadWithOptions p fs parse cwd (o.withCargoHome home) := by
  unfold HomeOf at hh
  cases ho : o.cargoHome with
  | some h =>
    rw [ho] at hh
    dsimp only at hh
    subst hh
    obtain ⟨a1, a2, a3, a4, a5⟩ := o
    cases ho
    rfl
  | none =>
    rw [ho] at hh
    exact C04_from_process p fs parse cwd o home ho hh

theorem intoContext_home (h : Option Path) : ((o.withCargoHome h).intoContext p cwd).1 = (o.intoContext p cwd).1 := by
  obtain ⟨env, rustc, cargo, ch, ht⟩ := o
  cases env <;> rfl

/-- What loading did, in terms of the documents found. -/
theorem loaded_unpack (hdk : ∀ s t, toml s = .ok t → t.DistinctKeys) (hd : ∀ e, o.env = some e → DistinctKeys e)
    (h : EConfig.loadWithOptions p fs (fun s => toml s >>= Config.de) cwd o = .ok (c, s)) (he : EnvOf p o look)
    (hh : HomeOf p o cwd home) (hdocs : DocumentsOf fs toml cwd home docs) :
    ∃ de cx raws, cx.currentDir = cwd ∧ DistinctKeys cx.env ∧ Env.get cx.env = look ∧ EConfig.fromUnresolved de cx = .ok c ∧
      loadConfig fs (fun s => toml s >>= Config.de) cwd home = .ok de ∧
      FilesRead fs.read (fun s => toml s >>= Config.de) (walk fs.ex cwd home) raws ∧ ListRel ReadAs raws docs := by
  rw [load_home hh, C04_option, Res.bind_eq_ok] at h
  obtain ⟨de, h1, h⟩ := h
  rw [Res.bind_eq_ok] at h
  obtain ⟨c', h2, h⟩ := h
  cases Res.ok.inj h
  rw [intoContext_home] at h2
  obtain ⟨raws, h3, _⟩ := loadPaths_ok.1 h1
  refine ⟨de, _, raws, ?_, env_distinct hd, env_unique he rfl, h2, h1, h3, ?_⟩
  · unfold Options.intoContext
    cases o.env <;> rfl
  · obtain ⟨dirs, d1, d2, d3⟩ := hdocs
    obtain ⟨dirs', d1', d2'⟩ := C01_walk fs.ex cwd home
    have e := C01_spec_functional _ _ _ _ _ _ _ d1' d1 d2' d2
    refine readAs_of_same ?_ h3.2 d3 hdk
    rw [h3.1, e]

theorem toml_wf (s : Str) (c : Config) (h : (toml s >>= Config.de) = .ok c) : c.WF := by
  rw [Res.bind_eq_ok] at h
  obtain ⟨t, _, h⟩ := h
  exact wf_read h

theorem firstSome_map {α β : Type} (g : α → β) : ∀ l : List (Option α), (firstSome l).map g = firstSome (l.map (Option.map g))
  | [] => rfl
  | some _ :: _ => rfl
  | none :: l => firstSome_map g l

theorem envShape_doc {x : Path × Config} {y : Path × Toml} (h : ReadAs x y) : envShape x.2 = y.2.envIsTable := by
  funext k
  exact envShape_read h.2.1 h.2.2 k

/-- A single-valued setting of the merged files. -/
theorem merged_scalar {raws : List (Path × Config)} (h : ListRel ReadAs raws docs) (k : ScalarKey) :
    (firstSome (raws.map fun (p, raw) => (k.get raw).map (Val.foundIn p))).map (fun v => (v.val.toml, v.defn)) =
    (firstSome (docs.map fun (f, t) => (t.at (k.path t.envIsTable)).map fun x => (x, Definition.path f))).map
      fun x => (x.1, some x.2) := by
  rw [firstSome_map, firstSome_map, List.map_map, List.map_map]
  congr 1
  induction h with
  | nil => rfl
  | @cons x y xs ys h _ ih =>
    rw [List.map_cons, List.map_cons, ih]
    congr 1
    have h1 := scalar_read h.2.1 h.2.2 k
    rw [envShape_doc h] at h1
    obtain ⟨f, raw⟩ := x
    obtain ⟨g, t⟩ := y
    obtain ⟨rfl, _, _⟩ := h
    unfold IsAt at h1
    simp only [Function.comp_def] at h1 ⊢
    rw [h1]
    cases k.get raw <;> rfl

theorem doc_spells {split : Bool} {x : Option Toml} {y : Option (Repr' × List (Val Str))} (h : SpellsAt split x y) (f : Path) :
    (x = none ∧ y = none) ∨ ∃ v r ws, x = some v ∧ TomlList split v r ws ∧
      y.map (allFoundIn f) = some (r, ws.map fun w => ⟨w, some (.path f)⟩) := by
  unfold SpellsAt at h
  cases h with
  | none => exact .inl ⟨rfl, rfl⟩
  | some h =>
    rename_i v z
    refine .inr ⟨v, _, _, rfl, h, ?_⟩
    simp [allFoundIn, listTexts, Val.foundIn, Function.comp_def]

theorem merged_lists {raws : List (Path × Config)} (h : ListRel ReadAs raws docs) (split : Bool) (path : List Str)
    (g : Config → Option (Repr' × List (Val Str)))
    (hg : ∀ t c, Config.de t = .ok c → t.DistinctKeys → SpellsAt split (t.at path) (g c)) :
    ListsIn split path docs (raws.filterMap fun (p, raw) => (g raw).map (allFoundIn p)) := by
  induction h with
  | nil => exact .nil
  | @cons x y xs ys h _ ih =>
    obtain ⟨f, raw⟩ := x
    obtain ⟨f', t⟩ := y
    obtain ⟨rfl, h1, h2⟩ := h
    dsimp only at h1 h2
    rw [List.filterMap_cons]
    rcases doc_spells (hg t raw h1 h2) f with ⟨e1, e2⟩ | ⟨v, r, ws, e1, e2, e3⟩
    · simp only [e2, Option.map_none]
      exact .unset e1 ih
    · simp only [e3]
      exact .set e1 e2 ih

/-- The single-valued settings after the environment was applied, in terms of the documents. -/
theorem source_scalar {de de' : Config} {env : Env} {raws : List (Path × Config)}
    (hl : loadConfig fs (fun s => toml s >>= Config.de) cwd home = .ok de)
    (hf : FilesRead fs.read (fun s => toml s >>= Config.de) (walk fs.ex cwd home) raws) (hr : ListRel ReadAs raws docs)
    (hd : DistinctKeys env) (ha : de.applyEnv env = .ok de') (k : ScalarKey) :
    (k.get de').map (fun v => (v.val.toml, v.defn)) = (k.source (Env.get env) docs).map fun x => (x.1, some x.2) := by
  obtain ⟨raws', h1, h2⟩ := C05_nearest_wins (fun s c => toml_wf s c) hl
  rw [filesRead_unique h1 hf] at h2
  have h3 := merged_scalar hr k
  rw [← h2 k] at h3
  unfold ScalarKey.source ScalarKey.consulted
  by_cases hk : k = .cargoNewVcs
  · rw [if_pos hk]
    subst hk
    simp only [readEnv]
    rw [← h3]
    simp only [ScalarKey.get]
    rw [C24_cargo_new_vcs_ignored ha]
  · rw [if_neg hk, C20_scalar hd ha k hk]
    unfold ScalarKey.withEnv
    generalize hx : readEnv (Env.get env) k.sources = x
    cases x with
    | none => exact h3
    | some x =>
      cases x with
      | none => exact h3
      | some x =>
        obtain ⟨n, a⟩ := x
        cases a <;> rfl

theorem source_list {de de' : Config} {env : Env} {raws : List (Path × Config)}
    (hl : loadConfig fs (fun s => toml s >>= Config.de) cwd home = .ok de)
    (hf : FilesRead fs.read (fun s => toml s >>= Config.de) (walk fs.ex cwd home) raws) (hr : ListRel ReadAs raws docs)
    (hd : DistinctKeys env) (ha : de.applyEnv env = .ok de') (k : ListKey) : k.Source (Env.get env) docs (k.get de') := by
  obtain ⟨raws', h1, h2⟩ := C06_arrays_joined (fun s c => toml_wf s c) hl
  rw [filesRead_unique h1 hf] at h2
  have h3 := merged_lists hr k.splits k.path (fun c => k.get c) fun t c h1 h2 => list_read h1 h2 k
  rw [C20_list hd ha k]
  unfold ListKey.Source ListKey.withEnv
  generalize hx : readEnv (Env.get env) k.sources = x
  cases x with
  | none => exact ⟨_, h3, h2 k⟩
  | some x =>
    cases x with
    | none => exact ⟨_, h3, h2 k⟩
    | some x => rfl

theorem source_prog {de de' : Config} {env : Env} {raws : List (Path × Config)}
    (hl : loadConfig fs (fun s => toml s >>= Config.de) cwd home = .ok de)
    (hf : FilesRead fs.read (fun s => toml s >>= Config.de) (walk fs.ex cwd home) raws) (hr : ListRel ReadAs raws docs)
    (ha : de.applyEnv env = .ok de') (k : ProgKey) : k.Source (Env.get env) docs (k.get de') := by
  obtain ⟨raws', h1, h2⟩ := C07_commands_joined (fun s c => toml_wf s c) hl
  rw [filesRead_unique h1 hf] at h2
  have h3 := merged_lists hr true k.path (fun c => k.get c) fun t c h1 h2 => prog_read h1 h2 k
  have h4 := h2 k
  rw [C20_prog ha k]
  refine ⟨_, h3, fun hne => ?_, fun he => ?_⟩
  · generalize raws.filterMap _ = xs at h4 hne
    generalize k.get de = x at h4
    cases x with
    | some x => exact h4
    | none => cases h4; exact absurd rfl hne
  · rw [he] at h4
    generalize hx : k.get de = x at h4
    cases h4 with
    | unset =>
      unfold ProgKey.withEnv
      generalize readEnv (Env.get env) k.sources = x
      cases x with
      | none => rfl
      | some x =>
        cases x with
        | none => rfl
        | some x => rfl
    | array h => exact absurd rfl h

theorem targetNamed_ok {v : Val Str} {t : TargetTriple} (hv : v.defn ≠ none) (h : TargetTriple.new v.val v.defn (some cwd) = .ok t) :
    TargetNamed cwd v t := by
  obtain ⟨s, d⟩ := v
  unfold TargetTriple.new at h
  dsimp only at h hv
  by_cases hs : isSpecPath s = true
  · rw [if_pos hs, Res.bind_eq_ok] at h
    obtain ⟨stem, h1, h⟩ := h
    rw [Res.bind_eq_ok] at h
    obtain ⟨q, h2, h⟩ := h
    have hst : Path.fileStem s = some stem := by
      generalize Path.fileStem s = x at h1
      cases x with
      | none => cases h1
      | some x => cases Res.ok.inj h1; rfl
    obtain ⟨f, hf, hst⟩ := fileStem_iff.1 hst
    cases d with
    | none => exact absurd rfl hv
    | some d =>
      have key : ∃ base, d.root cwd = some base ∧ q = some (Path.join base s) := by
        have hr : d.rootOpt (some cwd) = (d.root cwd).map some := by
          cases d with
          | path f => rfl
          | environment k => rfl
          | cli f => cases f <;> rfl
        simp only [resolveSpecPath, hr] at h2
        generalize d.root cwd = x at h2
        cases x with
        | none => cases h2
        | some base => cases Res.ok.inj h2; exact ⟨base, rfl, rfl⟩
      obtain ⟨base, hb, rfl⟩ := key
      cases Res.ok.inj h
      exact .spec s d f stem base (isSpecPath_iff.1 hs) hf hst (root_baseDir hb)
  · rw [if_neg hs] at h
    cases Res.ok.inj h
    exact .triple s d (fun hn => hs (isSpecPath_iff.2 hn))

theorem listsIn_located {split : Bool} {path : List Str} {xs : List (Repr' × List (Val Str))} (h : ListsIn split path docs xs) :
    ∀ x ∈ xs, ∀ v ∈ x.2, v.defn ≠ none := by
  induction h with
  | nil => intro x hx; cases hx
  | unset _ _ ih => exact ih
  | set _ _ _ ih =>
    intro x hx v hv
    rcases List.mem_cons.1 hx with rfl | hx
    · obtain ⟨w, _, rfl⟩ := List.mem_map.1 hv
      simp
    · exact ih x hx v hv

theorem listSource_located {k : ListKey} {y : Option (Repr' × List (Val Str))} (h : k.Source look docs y) :
    ∀ r l, y = some (r, l) → ∀ v ∈ l, v.defn ≠ none := by
  rintro r l rfl v hv
  unfold ListKey.Source at h
  have key : (∃ xs, ListsIn k.splits k.path docs xs ∧ JoinedList xs (some (r, l))) → v.defn ≠ none := by
    rintro ⟨xs, h1, h2⟩
    have h3 := listsIn_located h1
    cases h2 with
    | array _ _ =>
      obtain ⟨l, hl, hv⟩ := List.mem_flatten.1 hv
      obtain ⟨x, hx, rfl⟩ := List.mem_map.1 hl
      exact h3 x (List.mem_reverse.1 hx) v hv
    | string _ => exact h3 (r, l) (by simp) v hv
  split at h
  · cases h
    obtain ⟨w, _, rfl⟩ := List.mem_map.1 hv
    simp
  · exact key h

theorem targetsNamed_ok {l : List (Val Str)} {ts : List TargetTriple} (hl : ∀ v ∈ l, v.defn ≠ none)
    (h : Res.mapList (fun v : Val Str => TargetTriple.new v.val v.defn (some cwd)) l = .ok ts) : ListRel (TargetNamed cwd) l ts := by
  induction l generalizing ts with
  | nil => cases Res.ok.inj h; exact .nil
  | cons v l ih =>
    simp only [Res.mapList, Res.bind_eq_ok] at h
    obtain ⟨t, ht, ts', hts', e⟩ := h
    cases Res.ok.inj e
    exact .cons (targetNamed_ok (hl v (by simp)) ht) (ih (fun v hv => hl v (by simp [hv])) hts')

/-- No table inside. -/
def Toml.isLeaf : Toml → Bool
  | .tbl _ => false
  | _ => true

theorem distinct_leaf {t : Toml} (h : t.isLeaf = true) : t.DistinctKeys := by
  intro p l hp
  cases p with
  | nil => cases Option.some.inj hp; cases h
  | cons k ks => cases t <;> cases h <;> cases hp

theorem distinct_tbl {l : List (Str × Toml)} (h : (l.map Prod.fst).Nodup) (h' : ∀ x ∈ l, x.2.DistinctKeys) :
    (Toml.tbl l).DistinctKeys := by
  intro p l' hp
  cases p with
  | nil => cases Option.some.inj hp; exact h
  | cons k ks =>
    simp only [Toml.at] at hp
    cases hg : BMap.get l k with
    | none => rw [hg] at hp; cases hp
    | some t =>
      rw [hg] at hp
      have : ∀ l : List (Str × Toml), BMap.get l k = some t → (k, t) ∈ l := by
        intro l
        induction l with
        | nil => intro h; cases h
        | cons e l ih =>
          obtain ⟨a, b⟩ := e
          unfold BMap.get
          split
          · rename_i he
            intro h
            cases h
            simp_all
          · intro h
            simp [ih h]
      exact h' (k, t) (this l hg) ks l' hp

end CC
