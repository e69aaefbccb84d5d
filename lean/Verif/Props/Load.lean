import Verif.Lemmas.Load
import Verif.Spec.Text
/-
Loading the hierarchy of config files: C05-C12.

`FilesRead fs.read parse paths raws` says that `raws` are the files `paths` with their parsed contents, in order.  The assumption
`∀ s c, parse s = .ok c → c.WF` says that the TOML parser builds proper maps and does not set the two internal flags.
-/
namespace CC

variable {fs : Fs} {parse : Str → Res Config} {cwd : Path} {home : Option Path} {c : Config}

/-! ### a sample world -/

section sample

/-- `/w/p/.cargo/config` (nearest) and `/w/.cargo/config.toml`. -/
def sampleNear : Config :=
  { build := { jobs := some ⟨4, none⟩, rustflags := some (Flags.fromArray [⟨"-Cfar".toList, none⟩]) }
    target := [("t".toList, { runner := PathAndArgs.fromArray [⟨"qemu".toList, none⟩, ⟨"-x".toList, none⟩] })]
    env := [("A".toList, .value ⟨"1".toList, none⟩)] }

def sampleFar : Config :=
  { build :=
      { jobs := some ⟨8, none⟩, rustc := some ⟨"bin/rustc".toList, none⟩
        rustflags := some (Flags.fromArray [⟨"-g".toList, none⟩, ⟨"-O".toList, none⟩]) }
    target := [("t".toList, { runner := PathAndArgs.fromArray [⟨"wrap".toList, none⟩], linker := some ⟨"ld".toList, none⟩ }),
      ("u".toList, {})] }

def sampleFs : Fs :=
  { ex := fun p => p = "/w/p/.cargo/config".toList || p = "/w/.cargo/config.toml".toList
    read := fun p =>
      if p = "/w/p/.cargo/config".toList then .ok "near".toList
      else if p = "/w/.cargo/config.toml".toList then .ok "far".toList else .err (.io []) }

def sampleParse (s : Str) : Res Config :=
  if s = "near".toList then .ok sampleNear else if s = "far".toList then .ok sampleFar else .err (.toml [])

def samplePaths : List Path := ["/w/p/.cargo/config".toList, "/w/.cargo/config.toml".toList]

def sampleRaws : List (Path × Config) := [("/w/p/.cargo/config".toList, sampleNear), ("/w/.cargo/config.toml".toList, sampleFar)]

theorem sample_wf (s : Str) (c : Config) (h : sampleParse s = .ok c) : c.WF := by
  unfold sampleParse at h
  split at h
  · cases h
    exact ⟨by decide +kernel, by decide +kernel, by decide +kernel, by decide +kernel, rfl, rfl⟩
  · split at h
    · cases h
      exact ⟨by decide +kernel, by decide +kernel, by decide +kernel, by decide +kernel, rfl, rfl⟩
    · cases h

/-- The config loaded in the sample world. -/
theorem sample_loads : ∃ c, loadConfig sampleFs sampleParse "/w/p".toList none = .ok c := by
  have : (loadConfig sampleFs sampleParse "/w/p".toList none).isOk = true := by decide +kernel
  cases h : loadConfig sampleFs sampleParse "/w/p".toList none with
  | ok c => exact ⟨c, rfl⟩
  | err e => rw [h] at this; simp [Res.isOk] at this
  | panic => rw [h] at this; simp [Res.isOk] at this

theorem sample_read : FilesRead sampleFs.read sampleParse (walk sampleFs.ex "/w/p".toList none) sampleRaws := by
  rw [show walk sampleFs.ex "/w/p".toList none = samplePaths by decide +kernel]
  refine ⟨by decide +kernel, ?_⟩
  intro p raw h
  simp only [sampleRaws, List.mem_cons, Prod.mk.injEq, List.not_mem_nil, or_false] at h
  rcases h with ⟨rfl, rfl⟩ | ⟨rfl, rfl⟩
  · exact ⟨"near".toList, rfl, rfl⟩
  · exact ⟨"far".toList, rfl, rfl⟩

example : walk sampleFs.ex "/w/p".toList none = samplePaths := by decide +kernel
example : FilesRead sampleFs.read sampleParse samplePaths sampleRaws := by
  refine ⟨by decide +kernel, ?_⟩
  intro p raw h
  simp only [sampleRaws, List.mem_cons, Prod.mk.injEq, List.not_mem_nil, or_false] at h
  rcases h with ⟨rfl, rfl⟩ | ⟨rfl, rfl⟩
  · exact ⟨"near".toList, rfl, rfl⟩
  · exact ⟨"far".toList, rfl, rfl⟩
/-- The load succeeds in the sample world. -/
example : (loadConfig sampleFs sampleParse "/w/p".toList none).isOk = true := by decide +kernel
example : (loadConfig sampleFs sampleParse "/w/p".toList none).toOption.bind (fun c => ScalarKey.buildJobs.get c) =
    (some ⟨.int 4, some (.path "/w/p/.cargo/config".toList)⟩) := by decide +kernel
example : (loadConfig sampleFs sampleParse "/w/p".toList none).toOption.bind (fun c => ListKey.buildRustflags.get c) =
    (some (.array, [⟨"-g".toList, some (.path "/w/.cargo/config.toml".toList)⟩,
      ⟨"-O".toList, some (.path "/w/.cargo/config.toml".toList)⟩,
      ⟨"-Cfar".toList, some (.path "/w/p/.cargo/config".toList)⟩])) := by decide +kernel
example : (loadConfig sampleFs sampleParse "/w/p".toList none).toOption.bind (fun c => (ProgKey.targetRunner "t".toList).get c) =
    (some (.array, [⟨"qemu".toList, some (.path "/w/p/.cargo/config".toList)⟩,
      ⟨"-x".toList, some (.path "/w/p/.cargo/config".toList)⟩,
      ⟨"wrap".toList, some (.path "/w/.cargo/config.toml".toList)⟩])) := by decide +kernel

end sample

/-! ### C12 -/

/-- C12: if loading succeeds, every file on the walk was read and parsed, and the contents are determined. -/
theorem C12_all_read (h : loadConfig fs parse cwd home = .ok c) :
    ∃ raws, FilesRead fs.read parse (walk fs.ex cwd home) raws ∧
      ∀ raws', FilesRead fs.read parse (walk fs.ex cwd home) raws' → raws' = raws := by
  obtain ⟨raws, h1, _⟩ := loadPaths_ok.1 h
  exact ⟨raws, h1, fun raws' h' => filesRead_unique h' h1⟩

/-- In the sample world there are two files to read. -/
example : ∃ raws, FilesRead sampleFs.read sampleParse (walk sampleFs.ex "/w/p".toList none) raws ∧ raws.length = 2 := by
  obtain ⟨c, h⟩ := sample_loads
  obtain ⟨raws, h1, h2⟩ := C12_all_read h
  exact ⟨raws, h1, by rw [← h2 _ sample_read]; rfl⟩

/-- C12: if a file on the walk cannot be read, or its text cannot be parsed, loading does not succeed. -/
theorem C12_broken {p : Path} (hp : p ∈ walk fs.ex cwd home)
    (hbroken : (∀ text, fs.read p ≠ .ok text) ∨ ∃ text, fs.read p = .ok text ∧ ∀ raw, parse text ≠ .ok raw) :
    ∀ c, loadConfig fs parse cwd home ≠ .ok c := by
  intro c h
  obtain ⟨raws, h1, _⟩ := loadPaths_ok.1 h
  obtain ⟨raw, _, text, h2, h3⟩ := filesRead_mem h1 hp
  rcases hbroken with hb | ⟨text', hb1, hb2⟩
  · exact hb text h2
  · rw [h2] at hb1; cases hb1
    exact hb2 raw h3

/-- The second file of the sample world is broken. -/
example : "/w/.cargo/config.toml".toList ∈ walk sampleFs.ex "/w/p".toList none ∧
    ∃ text, sampleFs.read "/w/.cargo/config.toml".toList = .ok text ∧
      ∀ raw, (fun s => if s = "near".toList then .ok sampleNear else .err (.toml []) : Str → Res Config) text ≠ .ok raw := by
  refine ⟨by decide +kernel, "far".toList, rfl, ?_⟩
  intro raw
  rw [show (fun s => if s = "near".toList then .ok sampleNear else .err (.toml []) : Str → Res Config) "far".toList = .err (.toml []) from rfl]
  simp

/-- C12: without any config file the empty config is returned. -/
theorem C12_no_files (h : walk fs.ex cwd home = []) : loadConfig fs parse cwd home = .ok {} := by
  rw [loadConfig, h]; rfl

example : walk (fun _ => false) "/w/p".toList (some "/h/.cargo".toList) = [] := by decide +kernel

/-- C12: loading panics only if reading or parsing does. -/
theorem C12_no_panic (hr : ∀ p, fs.read p ≠ .panic) (hparse : ∀ s, parse s ≠ .panic) :
    loadConfig fs parse cwd home ≠ .panic :=
  loadPaths_noPanic (fun p _ => hr p) hparse

example : (∀ p, sampleFs.read p ≠ .panic) ∧ ∀ s, sampleParse s ≠ .panic := by
  constructor
  · intro p; simp only [sampleFs]; split
    · simp
    · split <;> simp
  · intro s; unfold sampleParse; split
    · simp
    · split <;> simp

/-! ### C05, C06, C07 -/

/-- C05: after a successful load every single-valued setting is that of the first file, in walk order, that sets it, and remembers
that file; it is unset if no file sets it. -/
theorem C05_nearest_wins (hparse : ∀ s c, parse s = .ok c → c.WF) (h : loadConfig fs parse cwd home = .ok c) :
    ∃ raws, FilesRead fs.read parse (walk fs.ex cwd home) raws ∧
      ∀ k : ScalarKey, k.get c = firstSome (raws.map fun (p, raw) => (k.get raw).map (Val.foundIn p)) := by
  obtain ⟨raws, h1, h2⟩ := loadPaths_ok.1 h
  refine ⟨raws, h1, fun k => ?_⟩
  rw [mergeList_scalar h2 (located_wf hparse h1), located, List.map_map]
  congr 1
  apply List.map_congr_left
  rintro ⟨p, raw⟩ _
  exact scalar_setPath p raw k

/-- In the sample world both files set `build.jobs`, only the farther sets `build.rustc`. -/
example : ∃ c, loadConfig sampleFs sampleParse "/w/p".toList none = .ok c ∧
    ScalarKey.buildJobs.get c = some ⟨.int 4, some (.path "/w/p/.cargo/config".toList)⟩ ∧
    ScalarKey.buildRustc.get c = some ⟨.str "bin/rustc".toList, some (.path "/w/.cargo/config.toml".toList)⟩ := by
  obtain ⟨c, h⟩ := sample_loads
  obtain ⟨raws, h1, h2⟩ := C05_nearest_wins sample_wf h
  obtain ⟨raws', _, h4⟩ := C12_all_read h
  obtain rfl : raws = sampleRaws := (h4 _ h1).trans (h4 _ sample_read).symm
  exact ⟨c, h, (h2 _).trans (by decide +kernel), (h2 _).trans (by decide +kernel)⟩

/-- C06: after a successful load every list setting (flags, alias words, build targets) is the concatenation of the arrays of all files
that set it, the nearest last, if they are arrays; if they are strings it is the nearest one; there is no other possibility. -/
theorem C06_arrays_joined (hparse : ∀ s c, parse s = .ok c → c.WF) (h : loadConfig fs parse cwd home = .ok c) :
    ∃ raws, FilesRead fs.read parse (walk fs.ex cwd home) raws ∧
      ∀ k : ListKey, JoinedList (raws.filterMap fun (p, raw) => (k.get raw).map (allFoundIn p)) (k.get c) := by
  obtain ⟨raws, h1, h2⟩ := loadPaths_ok.1 h
  refine ⟨raws, h1, fun k => ?_⟩
  have := mergeList_list h2 (located_wf hparse h1) k
  rw [located, List.filterMap_map] at this
  have e : ((fun c => ListKey.get c k) ∘ fun x : Path × Config => Config.setPath x.1 x.2) =
      fun x : Path × Config => (k.get x.2).map (allFoundIn x.1) := by
    funext x; exact list_setPath x.1 x.2 k
  rw [e] at this
  exact this

/-- In the sample world both files set `build.rustflags`. -/
example : ∃ c, loadConfig sampleFs sampleParse "/w/p".toList none = .ok c ∧ ∃ raws : List (Path × Config), raws.length = 2 ∧
    ∀ k : ListKey, JoinedList (raws.filterMap fun (p, raw) => (k.get raw).map (allFoundIn p)) (k.get c) := by
  obtain ⟨c, h⟩ := sample_loads
  obtain ⟨raws, h1, h2⟩ := C06_arrays_joined sample_wf h
  obtain ⟨raws', _, h4⟩ := C12_all_read h
  exact ⟨c, h, raws, by rw [h4 _ h1, ← h4 _ sample_read]; rfl, h2⟩

/-- C07: after a successful load every command (runner, browser) is the concatenation of the arrays of all files that set it, the
nearest first, if they are arrays; if they are strings it is the nearest one; there is no other possibility. -/
theorem C07_commands_joined (hparse : ∀ s c, parse s = .ok c → c.WF) (h : loadConfig fs parse cwd home = .ok c) :
    ∃ raws, FilesRead fs.read parse (walk fs.ex cwd home) raws ∧
      ∀ k : ProgKey, JoinedProg (raws.filterMap fun (p, raw) => (k.get raw).map (allFoundIn p)) (k.get c) := by
  obtain ⟨raws, h1, h2⟩ := loadPaths_ok.1 h
  refine ⟨raws, h1, fun k => ?_⟩
  have := mergeList_prog h2 (located_wf hparse h1) k
  rw [located, List.filterMap_map] at this
  have e : ((fun c => ProgKey.get c k) ∘ fun x : Path × Config => Config.setPath x.1 x.2) =
      fun x : Path × Config => (k.get x.2).map (allFoundIn x.1) := by
    funext x; exact prog_setPath x.1 x.2 k
  rw [e] at this
  exact this

/-- C07: the program of a joined command is that of the nearest file that sets it. -/
theorem C07_program {α : Type} {xs : List (Repr' × List α)} {r : Repr'} {w : List α} (h : JoinedProg xs (some (r, w)))
    (hne : ∀ x ∈ xs, x.2 ≠ []) : ∃ x rest, xs = x :: rest ∧ w.head? = x.2.head? := by
  cases h with
  | array h1 h2 =>
    cases xs with
    | nil => exact absurd rfl h1
    | cons x rest =>
      refine ⟨x, rest, rfl, ?_⟩
      have := hne x (by simp)
      cases hx : x.2 with
      | nil => exact absurd hx this
      | cons a l => simp [hx]
  | string h => exact ⟨_, _, rfl, rfl⟩

example : JoinedProg [(Repr'.array, ["a", "b"]), (Repr'.array, ["c"])] (some (.array, ["a", "b", "c"])) :=
  .array (by simp) (by simp)
example : JoinedList [(Repr'.array, ["a", "b"]), (Repr'.array, ["c"])] (some (.array, ["c", "a", "b"])) :=
  .array (by simp) (by simp)
/-- The two specifications determine the result. -/
example {α : Type} {xs : List (Repr' × List α)} {r s : Option (Repr' × List α)} (h1 : JoinedList xs r) (h2 : JoinedList xs s) :
    r = s := by
  cases h1 with
  | unset =>
    cases h2 with
    | unset => rfl
    | array h => simp at h
  | array h h' =>
    cases h2 with
    | unset => simp at h
    | array => rfl
    | string h2 => have := h' _ (List.mem_cons_self ..); rw [h2 _ (List.mem_cons_self ..)] at this; cases this
  | string h =>
    cases h2 with
    | array h1 h2 => have := h _ (List.mem_cons_self ..); rw [h2 _ (List.mem_cons_self ..)] at this; cases this
    | string => rfl

/-! ### C11 -/

/-- C11: every single value in the loaded config comes, unchanged, from the same key of the file that its definition names. -/
theorem C11_scalar (hparse : ∀ s c, parse s = .ok c → c.WF) (h : loadConfig fs parse cwd home = .ok c)
    (k : ScalarKey) (v : Val Atom) (hv : k.get c = some v) :
    ∃ p ∈ walk fs.ex cwd home, v.defn = some (.path p) ∧
      ∃ text raw w, fs.read p = .ok text ∧ parse text = .ok raw ∧ k.get raw = some w ∧ w.val = v.val := by
  obtain ⟨raws, h1, h2⟩ := C05_nearest_wins hparse h
  rw [h2 k] at hv
  have key : ∀ l : List (Option (Val Atom)), firstSome l = some v → some v ∈ l := by
    intro l
    induction l with
    | nil => simp [firstSome]
    | cons a l ih =>
      cases a with
      | none => intro h; simp [ih h]
      | some a => intro h; simp only [firstSome] at h; rw [h]; exact List.mem_cons_self ..
  have := key _ hv
  obtain ⟨⟨p, raw⟩, hm, e⟩ := List.mem_map.1 this
  obtain ⟨w, hw, rfl⟩ := Option.map_eq_some_iff.1 e
  obtain ⟨text, t1, t2⟩ := h1.2 p raw hm
  refine ⟨p, ?_, rfl, text, raw, w, t1, t2, hw, rfl⟩
  rw [← h1.1]
  exact List.mem_map.2 ⟨_, hm, rfl⟩

/-- `build.rustc` of the sample world comes from the farther file. -/
example : ∃ c v, loadConfig sampleFs sampleParse "/w/p".toList none = .ok c ∧ ScalarKey.buildRustc.get c = some v ∧
    v.defn = some (.path "/w/.cargo/config.toml".toList) := by
  obtain ⟨c, h⟩ := sample_loads
  obtain ⟨raws, h1, h2⟩ := C05_nearest_wins sample_wf h
  obtain ⟨raws', _, h4⟩ := C12_all_read h
  obtain rfl : raws = sampleRaws := (h4 _ h1).trans (h4 _ sample_read).symm
  exact ⟨c, _, h, (h2 _).trans (by decide +kernel : _ = some ⟨.str "bin/rustc".toList, some (.path "/w/.cargo/config.toml".toList)⟩), rfl⟩

/-- C11: every element of a list or command in the loaded config comes, unchanged, from the same key of the file that its definition
names. -/
theorem C11_elements (hparse : ∀ s c, parse s = .ok c → c.WF) (h : loadConfig fs parse cwd home = .ok c)
    (k : ListKey ⊕ ProgKey) (r : Repr') (l : List (Val Str))
    (hl : k.elim (fun k => k.get c) (fun k => k.get c) = some (r, l)) (v : Val Str) (hv : v ∈ l) :
    ∃ p ∈ walk fs.ex cwd home, v.defn = some (.path p) ∧
      ∃ text raw w l', fs.read p = .ok text ∧ parse text = .ok raw ∧
        k.elim (fun k => k.get raw) (fun k => k.get raw) = some (r, l') ∧ w ∈ l' ∧ w.val = v.val := by
  have key : ∀ (raws : List (Path × Config)) (g : Config → Option (Repr' × List (Val Str))),
      FilesRead fs.read parse (walk fs.ex cwd home) raws →
      (∃ x ∈ raws.filterMap fun (p, raw) => (g raw).map (allFoundIn p), x.1 = r ∧ v ∈ x.2) →
      ∃ p ∈ walk fs.ex cwd home, v.defn = some (.path p) ∧
      ∃ text raw w l', fs.read p = .ok text ∧ parse text = .ok raw ∧ g raw = some (r, l') ∧ w ∈ l' ∧ w.val = v.val := by
    rintro raws g h1 ⟨x, hx, hr, hv⟩
    obtain ⟨⟨p, raw⟩, hm, e⟩ := List.mem_filterMap.1 hx
    obtain ⟨⟨r', l'⟩, he, rfl⟩ := Option.map_eq_some_iff.1 e
    obtain ⟨text, t1, t2⟩ := h1.2 p raw hm
    simp only [allFoundIn] at hv hr
    obtain ⟨w, hw, rfl⟩ := List.mem_map.1 hv
    refine ⟨p, ?_, rfl, text, raw, w, l', t1, t2, hr ▸ he, hw, rfl⟩
    rw [← h1.1]
    exact List.mem_map.2 ⟨_, hm, rfl⟩
  cases k with
  | inl k =>
    obtain ⟨raws, h1, h2⟩ := C06_arrays_joined hparse h
    refine key raws (fun c => k.get c) h1 ?_
    have h2 := h2 k
    simp only [Sum.elim_inl] at hl
    rw [hl] at h2
    generalize raws.filterMap (fun x : Path × Config => (k.get x.2).map (allFoundIn x.1)) = xs at h2 ⊢
    cases h2 with
    | array h3 h4 =>
      simp only [List.mem_flatten, List.mem_map, List.mem_reverse] at hv
      obtain ⟨l, ⟨x, hx, rfl⟩, hv⟩ := hv
      exact ⟨x, hx, h4 x hx, hv⟩
    | string h3 => exact ⟨_, List.mem_cons_self .., rfl, hv⟩
  | inr k =>
    obtain ⟨raws, h1, h2⟩ := C07_commands_joined hparse h
    refine key raws (fun c => k.get c) h1 ?_
    have h2 := h2 k
    simp only [Sum.elim_inr] at hl
    rw [hl] at h2
    generalize raws.filterMap (fun x : Path × Config => (k.get x.2).map (allFoundIn x.1)) = xs at h2 ⊢
    cases h2 with
    | array h3 h4 =>
      simp only [List.mem_flatten, List.mem_map] at hv
      obtain ⟨l, ⟨x, hx, rfl⟩, hv⟩ := hv
      exact ⟨x, hx, h4 x hx, hv⟩
    | string h3 => exact ⟨_, List.mem_cons_self .., rfl, hv⟩

/-- The runner of the sample world has elements of both files. -/
example : ((loadConfig sampleFs sampleParse "/w/p".toList none).toOption.bind fun c =>
      (ProgKey.targetRunner "t".toList).get c).map (fun x => x.2.map fun v => v.defn) =
    some [some (.path "/w/p/.cargo/config".toList), some (.path "/w/p/.cargo/config".toList),
      some (.path "/w/.cargo/config.toml".toList)] := by decide +kernel

/-- C11, C05-C07: the keys of the specification cover the whole config: two configs (as read from files) that agree at
all keys are equal. -/
theorem C11_keys_cover {c d : Config} (hc : c.WF) (hd : d.WF) (h1 : ∀ k : ScalarKey, k.get c = k.get d)
    (h2 : ∀ k : ListKey, k.get c = k.get d) (h3 : ∀ k : ProgKey, k.get c = k.get d)
    (h4 : ∀ k : TableKey, k.present c = k.present d) (h5 : ∀ k, envShape c k = envShape d k) : c = d := by
  have inj : ∀ {α : Type} {g : α → Atom}, (∀ x y, g x = g y → x = y) → ∀ {a b : Option (Val α)},
      a.map (Val.map g) = b.map (Val.map g) → a = b := by
    intro α g hg a b h
    cases a with
    | none => cases b <;> simp at h ⊢
    | some a =>
      cases b with
      | none => simp at h
      | some b =>
        obtain ⟨a, da⟩ := a; obtain ⟨b, db⟩ := b
        simp only [Val.map, Option.map_some, Option.some.injEq, Val.mk.injEq] at h
        rw [hg _ _ h.1, h.2]
  have is : ∀ x y, Atom.str x = .str y → x = y := by rintro x y ⟨⟩; rfl
  have ib : ∀ x y, Atom.bool x = .bool y → x = y := by rintro x y ⟨⟩; rfl
  have ii : ∀ x y, Atom.int x = .int y → x = y := by rintro x y ⟨⟩; rfl
  have in' : ∀ x y, Atom.nat x = .nat y → x = y := by rintro x y ⟨⟩; rfl
  have ifr : ∀ x y, Atom.frequency x = .frequency y → x = y := by rintro x y ⟨⟩; rfl
  have iv : ∀ x y, Atom.vcs x = .vcs y → x = y := by rintro x y ⟨⟩; rfl
  have ip : ∀ x y, Atom.protocol x = .protocol y → x = y := by rintro x y ⟨⟩; rfl
  have ic : ∀ x y, Atom.color x = .color y → x = y := by rintro x y ⟨⟩; rfl
  have iw : ∀ x y, Atom.when x = .when y → x = y := by rintro x y ⟨⟩; rfl
  have fl : ∀ {a b : Option Flags}, (a.map fun l => (l.repr, l.flags)) = (b.map fun l => (l.repr, l.flags)) → a = b := by
    intro a b h
    cases a with
    | none => cases b <;> simp at h ⊢
    | some a =>
      cases b with
      | none => simp at h
      | some b => obtain ⟨a, ra⟩ := a; obtain ⟨b, rb⟩ := b; simp at h; simp [h]
  have pa : ∀ {a b : Option PathAndArgs}, (a.map fun x => (x.repr, x.path :: x.args)) = (b.map fun x => (x.repr, x.path :: x.args)) →
      a = b := by
    intro a b h
    cases a with
    | none => cases b <;> simp at h ⊢
    | some a =>
      cases b with
      | none => simp at h
      | some b => obtain ⟨pa, a, ra⟩ := a; obtain ⟨pb, b, rb⟩ := b; simp at h; simp [h]
  have hbt : c.build.target = d.build.target := by
    have := h2 .buildTarget
    rw [listKey_buildTarget, listKey_buildTarget] at this
    cases hx : c.build.target with
    | none => rw [hx] at this; cases hy : d.build.target <;> rw [hy] at this <;> simp at this ⊢
    | some x =>
      rw [hx] at this
      cases hy : d.build.target with
      | none => rw [hy] at this; simp at this
      | some y => rw [hy] at this; cases x <;> cases y <;> simp [StringOrArray.pair] at this ⊢ <;> exact this
  have halias : c.alias = d.alias := by
    apply BMap.ext hc.alias hd.alias
    intro k
    have := h2 (.alias k)
    simp only [ListKey.get] at this
    cases hx : c.alias.get k with
    | none => rw [hx] at this; cases hy : d.alias.get k <;> rw [hy] at this <;> simp at this ⊢
    | some x =>
      rw [hx] at this
      cases hy : d.alias.get k with
      | none => rw [hy] at this; simp at this
      | some y => rw [hy] at this; obtain ⟨x, rx⟩ := x; obtain ⟨y, ry⟩ := y; simp at this; simp [this]
  have henv : c.env = d.env := by
    apply BMap.ext hc.env hd.env
    intro k
    have e1 := h1 (.envValue k)
    have e2 := inj ib (h1 (.envForce k))
    have e3 := inj ib (h1 (.envRelative k))
    have e4 := h5 k
    simp only [ScalarKey.get, envShape] at e1 e2 e3 e4
    cases hx : c.env.get k with
    | none => rw [hx] at e1; cases hy : d.env.get k <;> rw [hy] at e1 <;> simp at e1 ⊢
    | some x =>
      rw [hx] at e1 e2 e3 e4
      cases hy : d.env.get k with
      | none => rw [hy] at e1; simp at e1
      | some y =>
        rw [hy] at e1 e2 e3 e4
        cases x with
        | value x =>
          cases y with
          | value y =>
            obtain ⟨x, dx⟩ := x; obtain ⟨y, dy⟩ := y
            simp [EnvConfigValue.theValue, Val.map] at e1
            simp [e1]
          | table => simp [EnvConfigValue.isTable] at e4
        | table x1 x2 x3 =>
          cases y with
          | value y => simp [EnvConfigValue.isTable] at e4
          | table y1 y2 y3 =>
            obtain ⟨x, dx⟩ := x1; obtain ⟨y, dy⟩ := y1
            simp [EnvConfigValue.theValue, Val.map] at e1
            simp [EnvConfigValue.theForce] at e2
            simp [EnvConfigValue.theRelative] at e3
            simp [e1, e2, e3]
  have hregs : c.registries = d.registries := by
    apply BMap.ext hc.registries hd.registries
    intro k
    have e1 := inj is (h1 (.registriesIndex k))
    have e2 := inj is (h1 (.registriesToken k))
    have e3 := inj ip (h1 (.registriesProtocol k))
    have e4 := h4 (.registries k)
    simp only [TableKey.present] at e4
    cases hx : c.registries.get k with
    | none => rw [hx] at e4; cases hy : d.registries.get k <;> rw [hy] at e4 <;> simp at e4 ⊢
    | some x =>
      rw [hx] at e1 e2 e3 e4
      cases hy : d.registries.get k with
      | none => rw [hy] at e4; simp at e4
      | some y =>
        rw [hy] at e1 e2 e3
        obtain ⟨x1, x2, x3⟩ := x; obtain ⟨y1, y2, y3⟩ := y
        simp at e1 e2 e3
        simp [e1, e2, e3]
  have htgt : c.target = d.target := by
    apply BMap.ext hc.target hd.target
    intro k
    have e1 := inj is (h1 (.targetLinker k))
    have e2 := pa (h3 (.targetRunner k))
    have e3 := fl (h2 (.targetRustflags k))
    have e5 := fl (h2 (.targetRustdocflags k))
    have e4 := h4 (.target k)
    simp only [TableKey.present] at e4
    cases hx : c.target.get k with
    | none => rw [hx] at e4; cases hy : d.target.get k <;> rw [hy] at e4 <;> simp at e4 ⊢
    | some x =>
      rw [hx] at e1 e2 e3 e4 e5
      cases hy : d.target.get k with
      | none => rw [hy] at e4; simp at e4
      | some y =>
        rw [hy] at e1 e2 e3 e5
        obtain ⟨x1, x2, x3, x4⟩ := x; obtain ⟨y1, y2, y3, y4⟩ := y
        simp at e1 e2 e3 e5
        simp [e1, e2, e3, e5]
  have o1 := hc.overrideTargetRustflags.trans hd.overrideTargetRustflags.symm
  have o2 := hc.overrideTargetRustdocflags.trans hd.overrideTargetRustdocflags.symm
  have b1 := inj ii (h1 .buildJobs)
  have b2 := inj is (h1 .buildRustc)
  have b3 := inj is (h1 .buildRustcWrapper)
  have b4 := inj is (h1 .buildRustcWorkspaceWrapper)
  have b5 := inj is (h1 .buildRustdoc)
  have b7 := inj is (h1 .buildTargetDir)
  have b8 := fl (h2 .buildRustflags)
  have b9 := fl (h2 .buildRustdocflags)
  have b10 := inj ib (h1 .buildIncremental)
  have b11 := inj is (h1 .buildDepInfoBasedir)
  have d1 := pa (h3 .docBrowser)
  have f1 := inj ifr (h1 .futureIncompatReportFrequency)
  have n1 := inj iv (h1 .cargoNewVcs)
  have p1 := inj ib (h1 .httpDebug)
  have p2 := inj is (h1 .httpProxy)
  have p3 := inj in' (h1 .httpTimeout)
  have p4 := inj is (h1 .httpCainfo)
  have p5 := inj ib (h1 .httpCheckRevoke)
  have p6 := inj in' (h1 .httpLowSpeedLimit)
  have p7 := inj ib (h1 .httpMultiplexing)
  have p8 := inj is (h1 .httpUserAgent)
  have q1 := inj in' (h1 .netRetry)
  have q2 := inj ib (h1 .netGitFetchWithCli)
  have q3 := inj ib (h1 .netOffline)
  have r1 := inj is (h1 .registryDefault)
  have r2 := inj is (h1 .registryToken)
  have t1 := inj ib (h1 .termQuiet)
  have t2 := inj ib (h1 .termVerbose)
  have t3 := inj ic (h1 .termColor)
  have t4 := inj iw (h1 .termProgressWhen)
  have t5 := inj in' (h1 .termProgressWidth)
  clear h1 h2 h3 h4 h5 hc hd inj is ib ii in' ifr iv ip ic iw fl pa
  obtain ⟨ca, ⟨c1, c2, c3, c4, c5, c6, c7, c8, c9, c10, c11, c12, c13⟩, ⟨cd⟩, ce, ⟨cf⟩, ⟨cn⟩, ⟨ch1, ch2, ch3, ch4, ch5, ch6, ch7, ch8⟩,
    ⟨cn1, cn2, cn3⟩, cr, ⟨cr1, cr2⟩, ct, ⟨ct1, ct2, ct3, ⟨ct4, ct5⟩⟩⟩ := c
  obtain ⟨ca', ⟨c1', c2', c3', c4', c5', c6', c7', c8', c9', c10', c11', c12', c13'⟩, ⟨cd'⟩, ce', ⟨cf'⟩, ⟨cn'⟩,
    ⟨ch1', ch2', ch3', ch4', ch5', ch6', ch7', ch8'⟩,
    ⟨cn1', cn2', cn3'⟩, cr', ⟨cr1', cr2'⟩, ct', ⟨ct1', ct2', ct3', ⟨ct4', ct5'⟩⟩⟩ := d
  simp only at *
  subst_vars
  rfl

/-- The two sample files differ, so they differ at some key. -/
example : sampleNear.WF ∧ sampleFar.WF ∧ ScalarKey.buildJobs.get sampleNear ≠ ScalarKey.buildJobs.get sampleFar := by
  refine ⟨sample_wf "near".toList _ rfl, sample_wf "far".toList _ rfl, by decide +kernel⟩

/-! ### C08 -/

/-- C08: merging two configs fails exactly if some setting has different shapes in them; it does not panic. -/
theorem C08_merge_fails_iff {a b : Config} (ha : a.WF) (hb : b.WF) (force : Bool) :
    ((mergeConfig a b force).isErr = true ↔ ShapeConflict a b) ∧ mergeConfig a b force ≠ .panic := by
  refine ⟨?_, mergeConfig_noPanic a b force⟩
  constructor
  · intro h
    refine Classical.byContradiction fun hc => ?_
    obtain ⟨r, hr⟩ := mergeConfig_ok_of_compatible (f := force) ha.maps hb.maps hc
    rw [hr] at h
    simp [Res.isErr] at h
  · intro h
    cases hm : mergeConfig a b force with
    | ok r => exact absurd h (compatible_of_mergedFields ((mergeConfig_ok_iff ha.maps hb.maps).1 hm))
    | err e => rfl
    | panic => exact absurd hm (mergeConfig_noPanic a b force)

/-- The sample files merge; a file with a string for `build.rustflags` does not merge with the farther one. -/
example : (mergeConfig sampleNear sampleFar false).isErr = false ∧
    (mergeConfig { build := { rustflags := some (Flags.fromSpaceSeparated "-g".toList none) } } sampleFar false).isErr = true := by
  decide +kernel

/-- C08: loading readable files succeeds exactly if no two of them use different shapes for a setting. -/
theorem C08_load_fails_iff (hparse : ∀ s c, parse s = .ok c → c.WF) {raws : List (Path × Config)}
    (hr : FilesRead fs.read parse (walk fs.ex cwd home) raws) :
    (∃ c, loadConfig fs parse cwd home = .ok c) ↔ raws.Pairwise fun x y => ¬ ShapeConflict x.2 y.2 := by
  have h1 : (∃ c, loadConfig fs parse cwd home = .ok c) ↔ ∃ c, mergeList (located raws) = .ok c := by
    constructor
    · rintro ⟨c, h⟩
      obtain ⟨raws', h1, h2⟩ := loadPaths_ok.1 h
      rw [filesRead_unique h1 hr] at h2
      exact ⟨c, h2⟩
    · rintro ⟨c, h⟩
      exact ⟨c, loadPaths_ok.2 ⟨raws, hr, h⟩⟩
  rw [h1, mergeList_ok_iff (located_wf hparse hr), located, List.pairwise_map]
  simp only [shapeConflict_setPath]

/-- Two files that use `build.rustflags` as a string and as an array. -/
example : ShapeConflict { build := { rustflags := some (Flags.fromSpaceSeparated "-g".toList none) } } sampleFar :=
  .list .buildRustflags .string .array _ _ rfl rfl (by simp)
/-- The two sample files agree in shape. -/
example : sampleRaws.Pairwise fun x y => ¬ ShapeConflict x.2 y.2 := by
  rw [← C08_load_fails_iff sample_wf sample_read]
  exact sample_loads

/-! ### C09 -/

/-- C09: after a successful load the keys of `[alias]`, `[env]`, `[registries]` and `[target]` are the union of those of all files. -/
theorem C09_union (hparse : ∀ s c, parse s = .ok c → c.WF) (h : loadConfig fs parse cwd home = .ok c) :
    ∃ raws, FilesRead fs.read parse (walk fs.ex cwd home) raws ∧
      ∀ k : TableKey, k.present c = true ↔ ∃ p raw, (p, raw) ∈ raws ∧ k.present raw = true := by
  obtain ⟨raws, h1, h2⟩ := loadPaths_ok.1 h
  refine ⟨raws, h1, fun k => ?_⟩
  rw [mergeList_present h2 (located_wf hparse h1), located, List.any_map, List.any_eq_true]
  constructor
  · rintro ⟨⟨p, raw⟩, hm, hp⟩
    exact ⟨p, raw, hm, by simpa [present_setPath] using hp⟩
  · rintro ⟨p, raw, hm, hp⟩
    exact ⟨(p, raw), hm, by simpa [present_setPath] using hp⟩

/-- In the sample world `[target] u` and `[env] A` are present, each from one of the files. -/
example : (loadConfig sampleFs sampleParse "/w/p".toList none).toOption.map (fun c =>
    ((TableKey.env "A".toList).present c, (TableKey.target "u".toList).present c, (TableKey.target "v".toList).present c)) =
      some (true, true, false) := by decide +kernel

/-- C09: the entry of one key only depends on the entries of that key in the files: two chains of the same files whose contents agree at
the key give the same entry, whatever else the files contain. -/
theorem C09_local (hparse : ∀ s c, parse s = .ok c → c.WF) {fs' : Fs} {parse' : Str → Res Config} {cwd' : Path} {home' : Option Path}
    {c' : Config} (hparse' : ∀ s c, parse' s = .ok c → c.WF)
    (h : loadConfig fs parse cwd home = .ok c) (h' : loadConfig fs' parse' cwd' home' = .ok c')
    {raws raws' : List (Path × Config)} (hr : FilesRead fs.read parse (walk fs.ex cwd home) raws)
    (hr' : FilesRead fs'.read parse' (walk fs'.ex cwd' home') raws') (k : TableKey)
    (hsame : Pointwise (fun x y => x.1 = y.1 ∧ k.Same x.2 y.2) raws raws') : k.Same c c' := by
  obtain ⟨r1, h1, h2⟩ := loadPaths_ok.1 h
  obtain ⟨r2, h3, h4⟩ := loadPaths_ok.1 h'
  rw [filesRead_unique h1 hr] at h2
  rw [filesRead_unique h3 hr'] at h4
  refine tableKey_local h2 h4 (located_wf hparse hr) (located_wf hparse' hr') ?_
  clear h h' hr hr' h1 h2 h3 h4
  induction hsame with
  | nil => exact .nil
  | cons hx _ ih =>
    refine .cons ?_ ih
    show k.Same (Config.setPath _ _) (Config.setPath _ _)
    rw [hx.1]
    exact tableKey_setPath _ hx.2

/-- C09: a key present in only one file has exactly the entry it has when that file is loaded alone. -/
theorem C09_only_one (hparse : ∀ s c, parse s = .ok c → c.WF) (h : loadConfig fs parse cwd home = .ok c)
    {pre post : List (Path × Config)} {p : Path} {raw alone : Config}
    (hr : FilesRead fs.read parse (walk fs.ex cwd home) (pre ++ (p, raw) :: post)) (k : TableKey)
    (honly : ∀ x ∈ pre ++ post, k.present x.2 = false) (halone : loadFile fs parse p = .ok alone) : k.Same c alone := by
  obtain ⟨r1, h1, h2⟩ := loadPaths_ok.1 h
  rw [filesRead_unique h1 hr] at h2
  have hp : p ∈ walk fs.ex cwd home := by rw [← hr.1]; simp
  obtain ⟨raw', ⟨text, t1, t2⟩, rfl⟩ := loadFile_ok.1 halone
  obtain ⟨text', t3, t4⟩ := hr.2 p raw (by simp)
  rw [t1] at t3; cases t3
  rw [t2] at t4; cases t4
  exact tableKey_only h2 (located_wf hparse hr) honly

/-- `[target] u` of the sample world is as in the farther file loaded alone. -/
example : ∃ c alone, loadConfig sampleFs sampleParse "/w/p".toList none = .ok c ∧
    loadFile sampleFs sampleParse "/w/.cargo/config.toml".toList = .ok alone ∧ (TableKey.target "u".toList).Same c alone := by
  obtain ⟨c, h⟩ := sample_loads
  refine ⟨c, _, h, rfl, ?_⟩
  exact C09_only_one (pre := [("/w/p/.cargo/config".toList, sampleNear)]) (post := []) sample_wf h sample_read _
    (by decide +kernel) rfl

/-- `[env] A` is only set by the nearest sample file, `[target] u` only by the other. -/
example : (TableKey.env "A".toList).present sampleNear = true ∧ (TableKey.env "A".toList).present sampleFar = false ∧
    (TableKey.target "u".toList).present sampleNear = false ∧ (TableKey.target "u".toList).present sampleFar = true := by
  decide +kernel

/-! ### C10 -/

/-- C10: merging is associative: either both groupings give the same config, or both fail. -/
theorem C10_assoc {a b c : Config} (ha : a.WF) (hb : b.WF) (hc : c.WF) (force : Bool) :
    ((mergeConfig a b force) >>= fun ab => mergeConfig ab c force).Same
      ((mergeConfig b c force) >>= fun bc => mergeConfig a bc force) := by
  apply Res.same_of_iff
  · exact Res.bind_ne_panic (mergeConfig_noPanic _ _ _) fun _ _ => mergeConfig_noPanic _ _ _
  · exact Res.bind_ne_panic (mergeConfig_noPanic _ _ _) fun _ _ => mergeConfig_noPanic _ _ _
  · intro r
    rw [Res.bind_eq_ok, Res.bind_eq_ok]
    exact mergeConfig_assoc ha.maps hb.maps hc.maps

example : sampleNear.WF ∧ sampleFar.WF ∧ ((mergeConfig sampleNear sampleFar false) >>= fun ab => mergeConfig ab {} false).isOk = true :=
  ⟨sample_wf "near".toList _ rfl, sample_wf "far".toList _ rfl, by decide +kernel⟩

/-- C10: a config that sets nothing is neutral on both sides. -/
theorem C10_neutral {a e : Config} (ha : a.WF) (he : e.WF) (h : SetsNothing e) (force : Bool) :
    mergeConfig a e force = .ok a ∧ mergeConfig e a force = .ok a := by
  rw [eq_empty_of_setsNothing he h]
  exact ⟨mergeConfig_empty_right ha force, mergeConfig_empty_left ha force⟩

example : SetsNothing {} := by
  refine ⟨?_, ?_, ?_, ?_⟩ <;> intro k <;> cases k <;> rfl

/-- C10: a file that sets nothing changes nothing, wherever it is in the chain: loading with it (`fs`) gives the same config as loading
without it (`fs'`), or both fail. -/
theorem C10_empty_file (hparse : ∀ s c, parse s = .ok c → c.WF) {fs' : Fs} {cwd' : Path} {home' : Option Path}
    {pre post : List Path} {p : Path} {text : Str} {e : Config}
    (hw : walk fs.ex cwd home = pre ++ p :: post) (hw' : walk fs'.ex cwd' home' = pre ++ post)
    (hsame : ∀ q ∈ pre ++ post, fs'.read q = fs.read q) (hnp : ∀ q, fs.read q ≠ .panic) (hnp' : ∀ s, parse s ≠ .panic)
    (hread : fs.read p = .ok text) (hempty : parse text = .ok e) (hnothing : SetsNothing e) :
    (loadConfig fs parse cwd home).Same (loadConfig fs' parse cwd' home') := by
  have key := fun c => loadPaths_skip (c := c) (fs := fs) hparse (pre := pre) (post := post) hread hempty hnothing
  have hcong : ∀ c, loadPaths fs' parse (pre ++ post) = .ok c ↔ loadPaths fs parse (pre ++ post) = .ok c := by
    intro c
    rw [loadPaths_ok, loadPaths_ok]
    constructor
    · rintro ⟨raws, h1, h2⟩
      refine ⟨raws, ⟨h1.1, fun q r hm => ?_⟩, h2⟩
      rw [← hsame q (by rw [← h1.1]; exact List.mem_map.2 ⟨_, hm, rfl⟩)]
      exact h1.2 q r hm
    · rintro ⟨raws, h1, h2⟩
      refine ⟨raws, ⟨h1.1, fun q r hm => ?_⟩, h2⟩
      rw [hsame q (by rw [← h1.1]; exact List.mem_map.2 ⟨_, hm, rfl⟩)]
      exact h1.2 q r hm
  apply Res.same_of_iff
  · exact C12_no_panic hnp hnp'
  · rw [loadConfig, hw']
    exact loadPaths_noPanic (fun q hq => by rw [hsame q hq]; exact hnp q) hnp'
  · intro r
    rw [loadConfig, loadConfig, hw, hw', hcong, key]

/-- The runner of the sample files: the parts given in the nearer file come first. -/
example : ∃ (c : Config) (raws : List (Path × Config)), loadConfig sampleFs sampleParse "/w/p".toList none = .ok c ∧
    JoinedProg (raws.filterMap fun (p, raw) => ((ProgKey.targetRunner "t".toList).get raw).map (allFoundIn p))
      ((ProgKey.targetRunner "t".toList).get c) := by
  obtain ⟨c, h⟩ := sample_loads
  obtain ⟨raws, -, h2⟩ := C07_commands_joined sample_wf h
  exact ⟨c, raws, h, h2 _⟩

/-- The entry `u` of `[target]` is the same if only other settings of a file are changed. -/
example (c c' : Config) (parse' : Str → Res Config) (hp : parse' = fun s => if s = "near".toList then .ok {} else sampleParse s)
    (h : loadConfig sampleFs sampleParse "/w/p".toList none = .ok c) (h' : loadConfig sampleFs parse' "/w/p".toList none = .ok c') :
    (TableKey.target "u".toList).Same c c' := by
  subst hp
  refine C09_local (raws' := [("/w/p/.cargo/config".toList, {}), ("/w/.cargo/config.toml".toList, sampleFar)]) sample_wf ?_ h h' sample_read
    ⟨?_, ?_⟩ _ ?_
  · intro s c hc
    split at hc
    · cases hc; exact ⟨BMap.sorted_nil, BMap.sorted_nil, BMap.sorted_nil, BMap.sorted_nil, rfl, rfl⟩
    · exact sample_wf s c hc
  · decide +kernel
  · intro p raw hm
    simp only [List.mem_cons, Prod.mk.injEq, List.not_mem_nil, or_false] at hm
    rcases hm with ⟨rfl, rfl⟩ | ⟨rfl, rfl⟩
    · exact ⟨"near".toList, rfl, rfl⟩
    · exact ⟨"far".toList, rfl, rfl⟩
  · exact .cons ⟨rfl, rfl⟩ (.cons ⟨rfl, rfl⟩ .nil)

/-- The sample with an empty nearer file is the sample with the farther file only. -/
example : (loadConfig sampleFs (fun s => if s = "near".toList then .ok {} else sampleParse s) "/w/p".toList none).Same
    (loadConfig { sampleFs with ex := fun p => p = "/w/.cargo/config.toml".toList }
      (fun s => if s = "near".toList then .ok {} else sampleParse s) "/w/p".toList none) := by
  refine C10_empty_file (pre := []) (post := ["/w/.cargo/config.toml".toList]) (p := "/w/p/.cargo/config".toList) (text := "near".toList)
    (e := {}) ?_ (by decide +kernel) (by decide +kernel) (fun _ _ => rfl) ?_ ?_ rfl rfl ?_
  · intro s c hc
    split at hc
    · cases hc; exact ⟨BMap.sorted_nil, BMap.sorted_nil, BMap.sorted_nil, BMap.sorted_nil, rfl, rfl⟩
    · exact sample_wf s c hc
  · intro p; simp only [sampleFs]; split
    · simp
    · split <;> simp
  · intro s
    split
    · simp
    · unfold sampleParse; split
      · simp
      · split <;> simp
  · refine ⟨?_, ?_, ?_, ?_⟩ <;> intro k <;> cases k <;> rfl

end CC
