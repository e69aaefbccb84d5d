import Verif.Spec.EasyDoc
import Verif.Lemmas.TargetOutcome
import Verif.Lemmas.EasyReload
import Verif.Props.Accept
/-
The settings of a loaded config do not depend on the directory they are read in.
-/
namespace CC

variable {p : ProcEnv} {fs : Fs} {toml : Str → Res Toml} {cwd : Path} {o : Options} {c : EConfig} {s : Cells}
  {look : Str → Option OsStr} {home : Option Path} {docs : List (Path × Toml)}

theorem absolute_iff {p : Path} : Absolute p ↔ (Path.components p).head? = some .root := by
  unfold Absolute
  rw [← isAbsolute_true]
  unfold Path.components Path.lead
  cases h : Path.isAbsolute p with
  | true => simp
  | false =>
    simp only [Bool.false_eq_true, if_false, false_iff]
    split
    · simp
    · cases Path.kept p with
      | nil => simp
      | cons k ks =>
        simp only [List.nil_append, List.map_cons, List.head?_cons, Path.toComp]
        split <;> simp

/-- Every base directory for values from there is absolute. -/
def AbsBase (cwd : Path) (d : Definition) : Prop := ∀ base, BaseDir cwd d base → Absolute base

theorem absolute_join {base x : Path} (h : Absolute base) : Absolute (Path.join base x) := by
  obtain ⟨r, rfl⟩ := h
  unfold Path.join
  cases hx : Path.isAbsolute x with
  | true =>
    obtain ⟨r, rfl⟩ := isAbsolute_true.1 hx
    exact ⟨r, rfl⟩
  | false =>
    simp only [Bool.false_eq_true, if_false]
    split
    · rename_i h
      simp at h
    · exact ⟨_, rfl⟩
    · exact ⟨_, rfl⟩

theorem absolute_of_prefix {a b : Path} {cs : List Path.Comp} (h : Path.components b = Path.components a ++ cs)
    (hb : Absolute b) (hn : Path.components a ≠ []) : Absolute a := by
  rw [absolute_iff] at *
  cases ha : Path.components a with
  | nil => exact absurd ha hn
  | cons x l =>
    rw [h, ha] at hb
    exact hb

theorem absolute_components_ne {p : Path} (h : Absolute p) : Path.components p ≠ [] := by
  intro e
  rw [absolute_iff, e] at h
  cases h

theorem ancestors_absolute {a : Path} (hc : Absolute cwd) (h : a ∈ Path.ancestors cwd) : Absolute a := by
  revert h hc
  induction cwd using parent_induction with
  | h s ih =>
    intro hc h
    rw [Path.ancestors_eq] at h
    cases hp : Path.parent s with
    | none =>
      rw [hp] at h
      simp at h
      subst h
      exact hc
    | some q =>
      rw [hp] at h
      rcases List.mem_cons.1 h with e | h
      · subst e; exact hc
      · refine ih q hp ?_ h
        obtain ⟨c, hcq⟩ := parent_components s q hp
        refine absolute_of_prefix hcq hc ?_
        intro e
        have hh := absolute_iff.1 hc
        rw [hcq, e] at hh
        have : c = .root := by simpa using hh
        have hpn : Path.parent s = none := parent_none_iff.2 (.inr (by rw [hcq, e, this]; rfl))
        rw [hp] at hpn
        cases hpn

/-- Where the values of a config come from. -/
def Located (docs : List (Path × Toml)) (d : Definition) : Prop := (∃ n, d = .environment n) ∨ ∃ f t, d = .path f ∧ (f, t) ∈ docs

theorem source_located {k : ScalarKey} {x : Toml × Definition} (h : k.source look docs = some x) : Located docs x.2 := by
  unfold ScalarKey.source at h
  split at h
  · rename_i n a _
    cases a with
    | none => cases h
    | some a => cases h; exact .inl ⟨n, rfl⟩
  · obtain ⟨⟨f, t⟩, hm, e⟩ := List.mem_map.1 (firstSome_mem h)
    dsimp only at e
    obtain ⟨v, -, rfl⟩ := Option.map_eq_some_iff.1 e
    exact .inr ⟨f, t, rfl, hm⟩

theorem configsOf_mem {ex : Path → Bool} {dirs fs : List Path} (h : ConfigsOf ex dirs fs) {f : Path} (hf : f ∈ fs) :
    ∃ dir ∈ dirs, IsConfigOf ex dir f := by
  induction h with
  | nil => cases hf
  | found hc _ ih =>
    rcases List.mem_cons.1 hf with rfl | hf
    · exact ⟨_, List.mem_cons_self, hc⟩
    · obtain ⟨d, h1, h2⟩ := ih hf
      exact ⟨d, List.mem_cons_of_mem _ h1, h2⟩
  | missing _ _ ih =>
    obtain ⟨d, h1, h2⟩ := ih hf
    exact ⟨d, List.mem_cons_of_mem _ h1, h2⟩

theorem located_abs (hd : DocumentsOf fs toml cwd home docs) (hc : Absolute cwd)
    (hh : ∀ h, home = some h → Absolute h ∧ Path.components h ≠ [.root]) {d : Definition} (h : Located docs d) : AbsBase cwd d := by
  intro base hb
  rcases h with ⟨n, rfl⟩ | ⟨f, t, rfl, hm⟩
  · rw [show base = cwd from hb]; exact hc
  · obtain ⟨dirs, hs, hcf, -⟩ := hd
    obtain ⟨dir, h1, h2⟩ := configsOf_mem hcf (List.mem_map_of_mem (f := Prod.fst) hm)
    have hloc : (∃ a ∈ Path.ancestors cwd, dir = Path.join a ".cargo".toList) ∨ home = some dir := by
      unfold SearchDirs at hs
      dsimp only at hs
      have hl : ∀ x ∈ (Path.ancestors cwd).map (fun d => Path.join d ".cargo".toList),
          ∃ a ∈ Path.ancestors cwd, x = Path.join a ".cargo".toList := by
        intro x hx
        obtain ⟨a, ha, e⟩ := List.mem_map.1 hx
        exact ⟨a, ha, e.symm⟩
      cases home with
      | none =>
        dsimp only at hs
        exact .inl (hl _ (hs ▸ h1))
      | some h =>
        dsimp only at hs
        rcases hs with ⟨-, hs⟩ | ⟨-, hs⟩
        · exact .inl (hl _ (hs ▸ h1))
        · rw [hs, List.mem_append] at h1
          rcases h1 with h1 | h1
          · exact .inl (hl _ h1)
          · right
            rw [List.mem_singleton.1 h1]
    rcases hloc with ⟨a, ha, rfl⟩ | hhome
    · have := (C13_base_dir hb).1 h2
      have ha' := ancestors_absolute hc ha
      rw [absolute_iff] at ha' ⊢
      rw [this]; exact ha'
    · obtain ⟨c, hc'⟩ := (C13_base_dir (dir := dir) hb).2 dir h2
      obtain ⟨h3, h4⟩ := hh dir hhome
      refine absolute_of_prefix hc' h3 ?_
      intro e
      have h5 := absolute_iff.1 h3
      rw [hc', e] at h5
      have : c = .root := by simpa using h5
      exact h4 (by rw [hc', e, this]; rfl)

theorem listsIn_loc {split : Bool} {path : List Str} {xs : List (Repr' × List (Val Str))} (h : ListsIn split path docs xs) :
    ∀ x ∈ xs, ∀ v ∈ x.2, ∃ d, v.defn = some d ∧ Located docs d := by
  induction h with
  | nil => intro x hx; cases hx
  | unset _ _ ih =>
    intro x hx v hv
    obtain ⟨d, h1, h2⟩ := ih x hx v hv
    refine ⟨d, h1, ?_⟩
    rcases h2 with h2 | ⟨f, t, h2, h3⟩
    · exact .inl h2
    · exact .inr ⟨f, t, h2, List.mem_cons_of_mem _ h3⟩
  | set _ _ _ ih =>
    intro x hx v hv
    rcases List.mem_cons.1 hx with rfl | hx
    · obtain ⟨w, -, rfl⟩ := List.mem_map.1 hv
      exact ⟨_, rfl, .inr ⟨_, _, rfl, List.mem_cons_self⟩⟩
    · obtain ⟨d, h1, h2⟩ := ih x hx v hv
      refine ⟨d, h1, ?_⟩
      rcases h2 with h2 | ⟨f, t, h2, h3⟩
      · exact .inl h2
      · exact .inr ⟨f, t, h2, List.mem_cons_of_mem _ h3⟩

theorem listFromVar_loc {n : Str} {x : Repr' × List Str} {v : Val Str} (hv : v ∈ (listFromVar n x).2) :
    ∃ d, v.defn = some d ∧ Located docs d := by
  obtain ⟨w, -, rfl⟩ := List.mem_map.1 hv
  exact ⟨_, rfl, .inl ⟨n, rfl⟩⟩

theorem listSource_loc {k : ListKey} {y : Option (Repr' × List (Val Str))} (h : k.Source look docs y) :
    ∀ r l, y = some (r, l) → ∀ v ∈ l, ∃ d, v.defn = some d ∧ Located docs d := by
  rintro r l rfl v hv
  unfold ListKey.Source at h
  split at h
  · cases h
    exact listFromVar_loc hv
  · obtain ⟨xs, h1, h2⟩ := h
    have h3 := listsIn_loc h1
    cases h2 with
    | array _ _ =>
      obtain ⟨l, hl, hv⟩ := List.mem_flatten.1 hv
      obtain ⟨x, hx, rfl⟩ := List.mem_map.1 hl
      exact h3 x (List.mem_reverse.1 hx) v hv
    | string _ => exact h3 (r, l) (by simp) v hv

theorem progSource_loc {k : ProgKey} {y : Option (Repr' × List (Val Str))} (h : k.Source look docs y) :
    ∀ r l, y = some (r, l) → ∀ v ∈ l, ∃ d, v.defn = some d ∧ Located docs d := by
  rintro r l rfl v hv
  obtain ⟨xs, h1, h2, h3⟩ := h
  by_cases hx : xs = []
  · have h3 := h3 hx
    split at h3
    · cases h3
      exact listFromVar_loc hv
    · cases h3
  · have h4 := listsIn_loc h1
    cases h2 hx with
    | array _ _ =>
      obtain ⟨l, hl, hv⟩ := List.mem_flatten.1 hv
      obtain ⟨x, hx, rfl⟩ := List.mem_map.1 hl
      exact h4 x hx v hv
    | string _ => exact h4 (r, l) (by simp) v hv

/-- The path of a program that does not depend on where it is read. -/
def PortProg (y : Path) : Prop := Absolute y ∨ ('/' ∉ y ∧ '\\' ∉ y)

theorem programPath_port {v : Val Str} {y : Path} {d : Definition} (hv : v.defn = some d) (hd : AbsBase cwd d)
    (h : ProgramPath cwd v y) : PortProg y := by
  cases h with
  | name s d h1 h2 => exact .inr ⟨h1, h2⟩
  | absolute r d => exact .inl ⟨r, rfl⟩
  | relative s d' base h1 h2 h3 =>
    cases hv
    exact .inl (absolute_join (hd base h3))
  | unlocated s => cases hv

theorem dirPath_port {v : Val Str} {y : Path} {d : Definition} (hv : v.defn = some d) (hd : AbsBase cwd d)
    (h : DirPath cwd v y) : Absolute y := by
  cases h with
  | absolute r d => exact ⟨r, rfl⟩
  | relative s d' base h2 h3 =>
    cases hv
    exact absolute_join (hd base h3)
  | unlocated s => cases hv

/-- A target that does not depend on where it is read. -/
def PortTarget (t : TargetTriple) : Prop := Constructed t ∧ ∀ p, t.specPath = some p → Absolute p

theorem targetNamed_port {v : Val Str} {t : TargetTriple} {d : Definition} (hv : v.defn = some d) (hd : AbsBase cwd d)
    (h : TargetNamed cwd v t) : PortTarget t := by
  cases h with
  | triple s d h =>
    refine ⟨⟨s, none, none, ?_⟩, fun p hp => by cases hp⟩
    have : isSpecPath s = false := by
      cases hs : isSpecPath s with
      | false => rfl
      | true => exact absurd (isSpecPath_iff.1 hs) h
    unfold TargetTriple.new
    rw [this]
    rfl
  | spec s d' f stem base h1 h2 h3 h4 =>
    cases hv
    refine ⟨⟨Path.join base s, none, none, ?_⟩, fun p hp => ?_⟩
    · have hn : (Path.fileName s).isSome = true := by rw [fileName_iff.2 h2]; rfl
      unfold TargetTriple.new
      rw [isSpecPath_join (isSpecPath_iff.2 h1) hn, fileStem_join hn, fileStem_iff.2 ⟨f, h2, h3⟩]
      rfl
    · cases hp
      exact absolute_join (hd base h4)

/-- A config that can be written and read at another place. -/
structure EConfig.Portable (c : EConfig) : Prop where
  programs : ∀ (k : ScalarKey) y, k.program c = some (some y) → PortProg y
  browser : ∀ b, c.doc.browser = some b → PortProg b.path
  directories : ∀ (k : ScalarKey) y, k.directory c = some (some y) → Absolute y
  targets : ∀ l, c.build.target = some l → ∀ t ∈ l, PortTarget t
  env : ∀ k e, BMap.get c.env k = some e → e.relative = false
  ranges : c.Ranges

theorem listRel_right {α β : Type} {R : α → β → Prop} {l : List α} {l' : List β} (h : ListRel R l l') {b : β} (hb : b ∈ l') :
    ∃ a ∈ l, R a b := by
  induction h with
  | nil => cases hb
  | cons h1 _ ih =>
    rcases List.mem_cons.1 hb with rfl | hb
    · exact ⟨_, List.mem_cons_self, h1⟩
    · obtain ⟨a, h2, h3⟩ := ih hb
      exact ⟨a, List.mem_cons_of_mem _ h2, h3⟩

theorem res_mapVals_sorted {V W : Type} {f : V → Res W} {m : BMap V} {m' : BMap W} (h : Res.mapVals f m = .ok m') :
    m'.map Prod.fst = m.map Prod.fst := by
  induction m generalizing m' with
  | nil => cases Res.ok.inj h; rfl
  | cons e m ih =>
    obtain ⟨k, v⟩ := e
    simp only [Res.mapVals, Res.bind_eq_ok] at h
    obtain ⟨w, -, m1, h1, e⟩ := h
    cases Res.ok.inj e
    simp only [List.map_cons, ih h1]

theorem sorted_of_keys {V W : Type} {m : BMap V} {m' : BMap W} (h : m'.map Prod.fst = m.map Prod.fst) (hs : m.Sorted) :
    m'.Sorted := by
  have h1 : (m.map Prod.fst).Pairwise fun a b => strLt a b = true := by
    rw [List.pairwise_map]; exact hs
  rw [← h, List.pairwise_map] at h1
  exact h1

theorem decimalUpTo_le {max n : Nat} {s : Str} (h : decimalUpTo max s = some n) : n ≤ max := by
  unfold decimalUpTo at h
  split at h
  · split at h
    · cases h; assumption
    · cases h
  · cases h

theorem textU32_le {n : Nat} {s : Str} (h : textU32 s = some n) : n ≤ 4294967295 := by
  unfold textU32 at h
  split at h <;> exact decimalUpTo_le h

theorem textI32_le {i : Int} {s : Str} (h : textI32 s = some i) : -2147483648 ≤ i ∧ i ≤ 2147483647 := by
  unfold textI32 at h
  split at h <;>
  · simp only [Option.bind_eq_bind, Option.pure_def, Option.map_eq_some_iff, Option.bind_eq_some_iff, Option.some.injEq] at h
    obtain ⟨_, ⟨n, hn, rfl⟩, rfl⟩ := h
    have := decimalUpTo_le hn
    omega


theorem loads_doc (h : Loads p fs toml cwd o look home docs c s) {f : Path} {t : Toml} (hm : (f, t) ∈ docs) : t.IsConfig := by
  obtain ⟨de, cx, raws, -, -, -, -, -, -, h7⟩ := loaded_unpack h.tables h.map h.loaded h.env h.home h.docs
  obtain ⟨a, -, h1, h2, h3⟩ := listRel_right h7 hm
  exact (C62_accepted_iff t h3).1 ⟨a.2, h2⟩

/-- A single-valued setting of a loaded config comes from a variable or from a document that is a config. -/
theorem plain_from (h : Loads p fs toml cwd o look home docs c s) {k : ScalarKey} {a : Atom} (hx : k.plain c = some (some a)) :
    (∃ n a', readEnv look k.consulted = some (some (n, some a')) ∧ a'.toml = a.toml) ∨ k.Takes a.toml := by
  have h1 := C57_plain h k _ hx
  simp only [Option.map_some] at h1
  obtain ⟨⟨x, d⟩, h2, h3⟩ := Option.map_eq_some_iff.1 h1.symm
  dsimp only at h3
  subst h3
  unfold ScalarKey.source at h2
  split at h2
  · rename_i n a' hr
    obtain ⟨a', rfl, e⟩ := Option.map_eq_some_iff.1 h2
    exact .inl ⟨n, a', hr, (Prod.mk.inj e).1⟩
  · right
    obtain ⟨⟨f, t⟩, hm, e⟩ := List.mem_map.1 (firstSome_mem h2)
    dsimp only at e
    obtain ⟨v, hv, e⟩ := Option.map_eq_some_iff.1 e
    cases (Prod.mk.inj e).1
    exact (loads_doc h hm).scalars k _ hv

theorem readEnv_single {n n' : Str} {rd : Str → Option (Option Atom)} {a : Option Atom}
    (h : readEnv look [(n, rd)] = some (some (n', a))) : ∃ s, rd s = some a := by
  unfold readEnv at h
  split at h
  · cases h
  · cases h
  · rename_i s _
    have h := Option.some.inj h
    obtain ⟨x, h1, h2⟩ := Option.map_eq_some_iff.1 h
    exact ⟨s, by rw [h1, (Prod.mk.inj h2).2]⟩

theorem u32_range (h : Loads p fs toml cwd o look home docs c s) {k : ScalarKey} {n : Nat} (hx : k.plain c = some (some (.nat n)))
    {name : String} (hk : k.consulted = [asU32 name]) (ht : ∀ x, k.Takes x → ∃ n : Nat, x = .int n ∧ n < 2 ^ 32) : n ≤ 4294967295 := by
  rcases plain_from h hx with ⟨m, a, h1, h2⟩ | h1
  · rw [hk] at h1
    obtain ⟨text, h3⟩ := readEnv_single h1
    obtain ⟨i, h4, h5⟩ := Option.map_eq_some_iff.1 h3
    cases h5
    have := textU32_le h4
    have h6 : (i : Int) = n := Toml.int.inj h2
    omega
  · obtain ⟨i, h2, h3⟩ := ht _ h1
    have h6 : (n : Int) = i := Toml.int.inj h2
    omega

theorem loads_ranges (h : Loads p fs toml cwd o look home docs c s) : c.Ranges := by
  obtain ⟨de, cx, raws, h1, h2, h3, h4, h5, h6, h7⟩ := loaded_unpack h.tables h.map h.loaded h.env h.home h.docs
  simp only [EConfig.fromUnresolved, Res.bind_eq_ok, Res.pure_eq] at h4
  obtain ⟨de', h0, b, hb, d, hd, en, he, e⟩ := h4
  have e := Res.ok.inj e
  have hwf := load_wf (fun s c => toml_wf s c) h5
  have happ := (applyEnv_ok_iff _ _ _).1 h0
  refine { alias := ?_, env := ?_, registries := ?_, jobs := ?_, timeout := ?_, lowSpeedLimit := ?_, retry := ?_, width := ?_ }
  · obtain ⟨c1, hc1, hal, -⟩ := happ.loop
    rw [← e]
    dsimp only
    rw [hal]
    exact ((applyVars_frame hc1).2.1 hwf.alias).mapVals _
  · rw [← e]
    exact sorted_of_keys (res_mapVals_sorted he) (happ.env ▸ hwf.env)
  · obtain ⟨c1, hc1, -, hre⟩ := happ.loop
    rw [← e]
    dsimp only
    rw [hre]
    exact ((applyVars_frame hc1).2.2.1 hwf.registries).mapVals _
  · intro i hi
    rcases plain_from h (k := .buildJobs) (a := .int i) (by simp only [ScalarKey.plain, hi, Option.map_some]) with ⟨n, a, h1, h2⟩ | h1
    · obtain ⟨text, h3⟩ := readEnv_single h1
      obtain ⟨j, h4, h5⟩ := Option.map_eq_some_iff.1 h3
      cases h5
      have := textI32_le h4
      have h6 : j = i := Toml.int.inj h2
      omega
    · obtain ⟨j, h2, h3⟩ := h1
      have h6 : i = j := Toml.int.inj h2
      omega
  · intro n hn
    exact u32_range h (k := .httpTimeout) (by simp only [ScalarKey.plain, hn, Option.map_some]) rfl fun x hx => hx
  · intro n hn
    exact u32_range h (k := .httpLowSpeedLimit) (by simp only [ScalarKey.plain, hn, Option.map_some]) rfl fun x hx => hx
  · intro n hn
    exact u32_range h (k := .netRetry) (by simp only [ScalarKey.plain, hn, Option.map_some]) rfl fun x hx => hx
  · intro n hn
    exact u32_range h (k := .termProgressWidth) (by simp only [ScalarKey.plain, hn, Option.map_some]) rfl fun x hx => hx

/-- A config loaded in an absolute directory is portable. -/
theorem loads_portable (h : Loads p fs toml cwd o look home docs c s) (hc : Absolute cwd)
    (hh : ∀ h, home = some h → Absolute h ∧ Path.components h ≠ [.root]) : c.Portable := by
  have habs : ∀ d, Located docs d → AbsBase cwd d := fun d hd => located_abs h.docs hc hh hd
  refine { programs := ?_, browser := ?_, directories := ?_, targets := ?_, env := ?_, ranges := loads_ranges h }
  · intro k y hk
    have h1 := C57_programs h k _ hk
    generalize hs : k.source look docs = x at h1
    cases h1 with
    | some h2 =>
      obtain ⟨t, -, h3⟩ := h2
      exact programPath_port rfl (habs _ (source_located hs)) h3
  · intro b hb
    obtain ⟨y, h1, h2⟩ := C57_browser h
    rw [hb] at h2
    cases h2 with
    | @some a _ h3 =>
      obtain ⟨v, args, e, h4, -⟩ := h3
      obtain ⟨d, h5, h6⟩ := progSource_loc h1 a.1 a.2 rfl v (by rw [e]; exact List.mem_cons_self)
      exact programPath_port h5 (habs _ h6) h4
  · intro k y hk
    have h1 := C57_directories h k _ hk
    generalize hs : k.source look docs = x at h1
    cases h1 with
    | some h2 =>
      obtain ⟨t, -, h3⟩ := h2
      exact dirPath_port rfl (habs _ (source_located hs)) h3
  · intro l hl t ht
    obtain ⟨y, h1, h2⟩ := C57_build_target h
    rw [hl] at h2
    cases h2 with
    | @some a _ h3 =>
      obtain ⟨v, h4, h5⟩ := listRel_right h3 ht
      obtain ⟨d, h6, h7⟩ := listSource_loc h1 a.1 a.2 rfl v h4
      exact targetNamed_port h6 (habs _ h7) h5
  · intro k e he
    have h1 := C57_env h k
    rw [he] at h1
    generalize (ScalarKey.envValue k).source look docs = x at h1
    cases h1 with
    | some h2 =>
      obtain ⟨t, -, h3, -⟩ := h2
      exact h3

/-- The linker found is located. -/
theorem theLinker_loc (h : Loads p fs toml cwd o look home docs c s) {holds : Str → Bool} {triple : Str} {v : Val Str}
    (hv : theLinker c.cx.env c.deTarget holds triple = some v) : ∃ d, v.defn = some d ∧ Located docs d := by
  have table : ∀ k tc, BMap.get c.deTarget k = some tc → tc.linker = some v → ∃ d, v.defn = some d ∧ Located docs d := by
    intro k tc hk hl
    have h1 := (C57_target_tables h k).1
    rw [hk, Option.bind_some, hl, Option.map_some] at h1
    obtain ⟨x, h2, h3⟩ := Option.map_eq_some_iff.1 h1.symm
    exact ⟨x.2, (Prod.mk.inj h3).2.symm, source_located h2⟩
  have := firstSome_mem hv
  rw [List.mem_cons, List.mem_cons] at this
  rcases this with h1 | h1 | h1
  · obtain ⟨x, -, rfl⟩ := Option.map_eq_some_iff.1 h1.symm
    exact ⟨_, rfl, .inl ⟨_, rfl⟩⟩
  · obtain ⟨tc, h2, h3⟩ := Option.bind_eq_some_iff.1 h1.symm
    exact table _ tc h2 h3
  · obtain ⟨tc, h2, h3⟩ := List.mem_map.1 h1
    obtain ⟨⟨k, tc'⟩, h4, rfl⟩ := List.mem_map.1 h2
    exact table k _ (BMap.get_of_mem (loads_sorted h) (List.mem_filter.1 h4).1) h3

/-- The runner found is located. -/
theorem theRunner_loc (h : Loads p fs toml cwd o look home docs c s) {holds : Str → Bool} {triple : Str} {ws : List (Val Str)}
    (hv : theRunner c.cx.env c.deTarget holds triple = some ws) : ∀ v ∈ ws, ∃ d, v.defn = some d ∧ Located docs d := by
  intro v hw
  have table : ∀ k tc, BMap.get c.deTarget k = some tc → tc.runner.map PathAndArgs.words = some ws →
      ∃ d, v.defn = some d ∧ Located docs d := by
    intro k tc hk hl
    obtain ⟨x, hx, rfl⟩ := Option.map_eq_some_iff.1 hl
    have h1 := (C57_target_tables h k).2.2.2
    rw [hk, Option.bind_some, hx, Option.map_some] at h1
    exact progSource_loc h1 _ _ rfl v hw
  have := firstSome_mem hv
  rw [List.mem_cons, List.mem_cons] at this
  rcases this with h1 | h1 | h1
  · obtain ⟨x, -, rfl⟩ := Option.map_eq_some_iff.1 h1.symm
    obtain ⟨w, -, rfl⟩ := List.mem_map.1 hw
    exact ⟨_, rfl, .inl ⟨_, rfl⟩⟩
  · obtain ⟨tc, h2, h3⟩ := Option.bind_eq_some_iff.1 h1.symm
    exact table _ tc h2 h3
  · obtain ⟨tc, h2, h3⟩ := List.mem_map.1 h1
    obtain ⟨⟨k, tc'⟩, h4, rfl⟩ := List.mem_map.1 h2
    exact table k _ (BMap.get_of_mem (loads_sorted h) (List.mem_filter.1 h4).1) h3

/-- The settings of a target that can be written and read at another place, given the flags for all targets. -/
structure ETarget.Portable (b : EBuild) (e : ETarget) : Prop where
  linker : ∀ y, e.linker = some y → PortProg y
  runner : ∀ y, e.runner = some y → PortProg y.path
  rustflags : e.rustflags = none → b.rustflags = none
  rustdocflags : e.rustdocflags = none → b.rustdocflags = none

variable {w : World} {s1 s2 : Cells} {t : TargetTriple}

theorem loads_target_portable (h : Loads p fs toml cwd o look home docs c s) (hc : Absolute cwd)
    (hh : ∀ h, home = some h → Absolute h ∧ Path.components h ≠ [.root]) {e : ETarget} (hs : s1.target.get t.cliTarget = none)
    (ht : c.target t w s1 = (.ok e, s2)) : e.Portable c.build := by
  have habs : ∀ d, Located docs d → AbsBase cwd d := fun d hd => located_abs h.docs hc hh hd
  have hcx := (loads_cx h).1
  refine { linker := ?_, runner := ?_, rustflags := ?_, rustdocflags := ?_ }
  · intro y hy
    obtain ⟨holds, -, h1⟩ := C27_linker hs ht
    rw [hy, hcx] at h1
    generalize hx : theLinker c.cx.env c.deTarget holds t.triple = x at h1
    cases h1 with
    | some h2 =>
      obtain ⟨d, h3, h4⟩ := theLinker_loc h hx
      exact programPath_port h3 (habs _ h4) h2
  · intro y hy
    obtain ⟨holds, -, h1⟩ := C28_runner hs ht
    rw [hy, hcx] at h1
    generalize hx : theRunner c.cx.env c.deTarget holds t.triple = x at h1
    cases h1 with
    | some h2 =>
      obtain ⟨v, args, e, h2, -⟩ := h2
      obtain ⟨d, h3, h4⟩ := theRunner_loc h hx v (by rw [e]; exact List.mem_cons_self)
      exact programPath_port h3 (habs _ h4) h2
  all_goals
    intro hn
    obtain ⟨-, a, holds, -, -, r, h3, h4⟩ := target_ok hs ht
    obtain ⟨de, cx, raws, -, -, -, h5, -⟩ := loaded_unpack h.tables h.map h.loaded h.env h.home h.docs
    cases h3
    simp only [ETarget.fromUnresolved, Res.bind_eq_ok, Res.pure_eq] at h4
    obtain ⟨l, -, rn, -, e1⟩ := h4
    cases Res.ok.inj e1
    dsimp only at hn
    have hb : ∀ (o : Bool) (a b : Option Flags), (chooseFlags o a b).map EFlags.fromUnresolved = none → b = none := by
      intro o a b hx
      unfold chooseFlags at hx
      cases b with
      | none => rfl
      | some b => cases o <;> cases a <;> cases hx
    have hn := hb _ _ _ hn
    simp only [EConfig.fromUnresolved, EBuild.fromUnresolved, Res.bind_eq_ok, Res.pure_eq] at h5
    obtain ⟨de', -, b, ⟨_, -, _, -, _, -, _, -, _, -, _, -, _, -, hb⟩, _, -, _, -, e⟩ := h5
    cases Res.ok.inj e
    cases Res.ok.inj hb
    dsimp only at hn ⊢
    rw [hn]
    rfl

end CC
