import Verif.Lemmas.MovedQuery
import Verif.Props.Cause
/-
The place of the config files matters only for relative paths: C81.
-/
namespace CC

/-- Definitions that correspond to each other. -/
inductive SameSpot (files : List (Path × Path)) : Definition → Definition → Prop where
  | env (n : Str) : SameSpot files (.environment n) (.environment n)
  | file (f f' : Path) : (f, f') ∈ files → SameSpot files (.path f) (.path f')

variable {p p' : ProcEnv} {o o' : Options} {fs fs' : Fs} {cwd cwd' : Path} {files : List (Path × Path)}

theorem listRel_pairs {α β : Type} (R : α → β → Prop) : ∀ l : List (α × β), (∀ a b, (a, b) ∈ l → R a b) → ListRel R (l.map Prod.fst) (l.map Prod.snd)
  | [], _ => .nil
  | (a, b) :: l, h => .cons (h a b List.mem_cons_self) (listRel_pairs R l fun a b hm => h a b (List.mem_cons_of_mem _ hm))

theorem files_grandparent {home : Option Path} {l : List Path} (h : FilesOf fs cwd home l)
    (hh : ∀ h, home = some h → Path.components h ≠ [] ∧ Path.components h ≠ [.root]) {f : Path} (hf : f ∈ l) : ∃ b, grandparent f = some b := by
  rw [files_unique h (walk_files fs cwd home)] at hf
  refine walk_grandparent hf fun h e hn => ?_
  rcases parent_none_iff.1 hn with h1 | h1
  · exact (hh h e).1 h1
  · exact (hh h e).2 h1

theorem SameContents.places (h : SameContents p p' o o' fs fs' cwd cwd' files) :
    Places (Corresponding cwd cwd' files) cwd cwd' (SameSpot files) := by
  obtain ⟨home, _, h2, h3⟩ := h.here
  obtain ⟨home', _, h2', h3'⟩ := h.there
  refine ⟨.env, fun d d' hd => ?_⟩
  cases hd with
  | env n => exact ⟨cwd, cwd', rfl, rfl, .current⟩
  | file f f' hf =>
    obtain ⟨b, hb⟩ := files_grandparent h2 h3 (List.mem_map.2 ⟨_, hf, rfl⟩)
    obtain ⟨b', hb'⟩ := files_grandparent h2' h3' (List.mem_map.2 ⟨_, hf, rfl⟩)
    exact ⟨b, b', hb, hb', .file f f' b b' hf (grandparent_components hb) (grandparent_components hb')⟩

theorem SameContents.fullAt (h : SameContents p p' o o' fs fs' cwd cwd' files) {base : Path → Path → Prop} {D : Definition → Definition → Prop}
    (hp : Places base cwd cwd' D) (hD : ∀ f f', (f, f') ∈ files → D (.path f) (.path f')) (parse : Str → Res Config) :
    Alike (fun x x' => MovedFull base D cwd cwd' x.1 x'.1 ∧ CellsRel base x.2 x'.2)
      (EConfig.loadWithOptions p fs parse cwd o) (EConfig.loadWithOptions p' fs' parse cwd' o') := by
  obtain ⟨hv, ⟨ch, rfl⟩, ⟨home, h1, h2, h3⟩, ⟨home', h1', h2', h3'⟩, hr⟩ := h
  have henv : (o.intoContext p cwd).1.env = (({ o with cargoHome := ch } : Options).intoContext p' cwd').1.env := by
    rcases hv with hv | hv
    · unfold Options.intoContext
      cases he : o.env with
      | none => rw [he] at hv; cases hv
      | some e => simp [he]
    · unfold Options.intoContext Options.withEnv
      rw [hv]
      cases he : o.env <;> simp [he]
  have hcargo : (o.intoContext p cwd).1.cargo = (({ o with cargoHome := ch } : Options).intoContext p' cwd').1.cargo := by
    rcases hv with hv | hv
    · unfold Options.intoContext
      cases he : o.env with
      | none => rw [he] at hv; cases hv
      | some e => simp [he]
    · unfold Options.intoContext Options.withEnv
      rw [hv]
      cases he : o.env <;> simp [he]
  rw [load_home h1, load_home h1', C04_option, C04_option]
  refine .bind (R := CRel D) ?_ fun de de' hde => ?_
  · unfold loadConfig
    rw [← files_unique h2 (walk_files fs cwd home), ← files_unique h2' (walk_files fs' cwd' home')]
    exact loadPaths_rel (listRel_pairs _ files fun f f' hm => ⟨hr f f' hm, hD f f' hm⟩)
  · refine .bind (fromUnresolved_rel hp hde ?_ ?_ ?_ ?_) fun c c' hc => ⟨hc, ?_⟩
    · rw [intoContext_home, intoContext_home]; exact henv
    · rw [intoContext_home, intoContext_home]; exact hcargo
    · unfold Options.intoContext; rfl
    · unfold Options.intoContext; rfl
    · obtain ⟨a1, a2, a3, a4, a5⟩ := o
      cases a1 <;> exact ⟨.refl (R := WordsRel _) (fun x => movedPath_refl (x.path :: x.args)) a2, rfl, rfl, rfl, rfl, .nil, rfl, .nil⟩

theorem SameContents.full (h : SameContents p p' o o' fs fs' cwd cwd' files) (parse : Str → Res Config) :
    Alike (fun x x' => MovedFull (Corresponding cwd cwd' files) (SameSpot files) cwd cwd' x.1 x'.1 ∧
        CellsRel (Corresponding cwd cwd' files) x.2 x'.2)
      (EConfig.loadWithOptions p fs parse cwd o) (EConfig.loadWithOptions p' fs' parse cwd' o') :=
  h.fullAt h.places (fun f f' hm => .file f f' hm) parse

/-- C81: loading files with the same contents at two places gives the same outcome: if one of the loads fails, so does the other, and
otherwise each public setting of the two configs is the same, except that a relative path is resolved against the directory that
corresponds to the one it is resolved against at the other place. -/
theorem C81_load (h : SameContents p p' o o' fs fs' cwd cwd' files) (parse : Str → Res Config) :
    Alike (fun x x' => MovedConfig (Corresponding cwd cwd' files) x.1 x'.1)
      (EConfig.loadWithOptions p fs parse cwd o) (EConfig.loadWithOptions p' fs' parse cwd' o') :=
  (h.full parse).mono fun _ _ hx => hx.1.moved

variable {parse : Str → Res Config} {c c' : EConfig} {s s' : Cells} {w w' : World}

/-- C81: after the same queries a query has the same outcome at both places, up to the place of paths. -/
theorem C81_answers (h : SameContents p p' o o' fs fs' cwd cwd' files) (hl : EConfig.loadWithOptions p fs parse cwd o = .ok (c, s))
    (hl' : EConfig.loadWithOptions p' fs' parse cwd' o' = .ok (c', s')) (hw : SameTools (Corresponding cwd cwd' files) w w')
    (qs : List Query) (q : Query) : Alike (MovedAnswer (Corresponding cwd cwd' files))
      (c.ask q w (afterQueries w (qs.map fun q => (c, q)) s)).1 (c'.ask q w' (afterQueries w' (qs.map fun q => (c', q)) s')).1 := by
  have hx := h.full parse
  rw [hl, hl'] at hx
  exact (ask_rel h.places hx.1 q w w' _ _ hw (after_rel h.places hx.1 hw qs hx.2)).1

/-- C81: the commands run are the same at both places, up to the place of paths. -/
theorem C81_commands (h : SameContents p p' o o' fs fs' cwd cwd' files) (hl : EConfig.loadWithOptions p fs parse cwd o = .ok (c, s))
    (hl' : EConfig.loadWithOptions p' fs' parse cwd' o' = .ok (c', s')) (hw : SameTools (Corresponding cwd cwd' files) w w')
    (qs : List Query) : ListRel (fun x x' => ListRel (MovedPath (Corresponding cwd cwd' files)) (x.program :: x.args) (x'.program :: x'.args))
      (afterQueries w (qs.map fun q => (c, q)) s).trace (afterQueries w' (qs.map fun q => (c', q)) s').trace := by
  have hx := h.full parse
  rw [hl, hl'] at hx
  exact (after_rel h.places hx.1 hw qs hx.2).trace

/-! A config file at `/a/.cargo/config` and one with the same contents at `/b/c/.cargo/config.toml`. -/

/-- One file. -/
def onlyFile (f : Path) : Fs := { ex := fun p => p == f, read := fun p => if p = f then .ok [] else .err (.io []) }

/-- The parsed contents: a program, a target directory and the flags of a target. -/
def onlyDoc : Config :=
  { build := { rustc := some ⟨"bin/rustc".toList, none⟩, rustdoc := some ⟨"rustdoc".toList, none⟩ }
    target := [("t".toList, { linker := some ⟨"bin/ld".toList, none⟩, rustflags := some ⟨[⟨"-g".toList, none⟩], .array⟩ })] }

theorem onlyFile_same : SameContents {} {} {} {} (onlyFile "/a/.cargo/config".toList) (onlyFile "/b/c/.cargo/config.toml".toList)
    "/a/x".toList "/b/c".toList [("/a/.cargo/config".toList, "/b/c/.cargo/config.toml".toList)] where
  vars := .inr rfl
  options := ⟨none, rfl⟩
  here := ⟨none, .nothing _ (.inl rfl), by
    have := walk_files (onlyFile "/a/.cargo/config".toList) "/a/x".toList none
    have e : walk (onlyFile "/a/.cargo/config".toList).ex "/a/x".toList none = ["/a/.cargo/config".toList] := by decide +kernel
    rw [e] at this
    exact this, nofun⟩
  there := ⟨none, .nothing _ (.inl rfl), by
    have := walk_files (onlyFile "/b/c/.cargo/config.toml".toList) "/b/c".toList none
    have e : walk (onlyFile "/b/c/.cargo/config.toml".toList).ex "/b/c".toList none = ["/b/c/.cargo/config.toml".toList] := by decide +kernel
    rw [e] at this
    exact this, nofun⟩
  read := by
    intro f f' hm
    cases List.mem_singleton.1 hm
    rfl

/-- What is resolved at the two places. -/
example : ((EConfig.loadWithOptions {} (onlyFile "/a/.cargo/config".toList) (fun _ => .ok onlyDoc) "/a/x".toList {}).toOption.map fun x =>
      (x.1.build.rustc, x.1.build.rustdoc)) = some (some "/a/bin/rustc".toList, some "rustdoc".toList) ∧
    ((EConfig.loadWithOptions {} (onlyFile "/b/c/.cargo/config.toml".toList) (fun _ => .ok onlyDoc) "/b/c".toList {}).toOption.map fun x =>
      (x.1.build.rustc, x.1.build.rustdoc)) = some (some "/b/c/bin/rustc".toList, some "rustdoc".toList) := by
  decide +kernel

/-- Tools that fail whatever they are called with do the same at both places. -/
example : SameTools (Corresponding "/a/x".toList "/b/c".toList [("/a/.cargo/config".toList, "/b/c/.cargo/config.toml".toList)])
    ⟨true, fun _ _ => .failed [] (.unicode []) (.unicode []), fun _ _ => false⟩
    ⟨true, fun _ _ => .failed [] (.unicode []) (.unicode []), fun _ _ => false⟩ := ⟨rfl, fun _ _ _ _ => rfl, fun _ _ => rfl⟩

/-- The statements about these two places: the outcomes, and those of queries. -/
example : ∃ c s c' s', EConfig.loadWithOptions {} (onlyFile "/a/.cargo/config".toList) (fun _ => .ok onlyDoc) "/a/x".toList {} = .ok (c, s) ∧
    EConfig.loadWithOptions {} (onlyFile "/b/c/.cargo/config.toml".toList) (fun _ => .ok onlyDoc) "/b/c".toList {} = .ok (c', s') ∧
    MovedConfig (Corresponding "/a/x".toList "/b/c".toList [("/a/.cargo/config".toList, "/b/c/.cargo/config.toml".toList)]) c c' ∧
    ∀ (qs : List Query) (q : Query), Alike (MovedAnswer (Corresponding "/a/x".toList "/b/c".toList [("/a/.cargo/config".toList, "/b/c/.cargo/config.toml".toList)]))
      (c.ask q ⟨true, fun _ _ => .failed [] (.unicode []) (.unicode []), fun _ _ => false⟩
        (afterQueries ⟨true, fun _ _ => .failed [] (.unicode []) (.unicode []), fun _ _ => false⟩ (qs.map fun q => (c, q)) s)).1
      (c'.ask q ⟨true, fun _ _ => .failed [] (.unicode []) (.unicode []), fun _ _ => false⟩
        (afterQueries ⟨true, fun _ _ => .failed [] (.unicode []) (.unicode []), fun _ _ => false⟩ (qs.map fun q => (c', q)) s')).1 := by
  have h1 : (EConfig.loadWithOptions {} (onlyFile "/a/.cargo/config".toList) (fun _ => .ok onlyDoc) "/a/x".toList {}).isOk = true := by
    decide +kernel
  have h2 : (EConfig.loadWithOptions {} (onlyFile "/b/c/.cargo/config.toml".toList) (fun _ => .ok onlyDoc) "/b/c".toList {}).isOk = true := by
    decide +kernel
  have h3 := C81_load onlyFile_same fun _ => .ok onlyDoc
  cases e1 : EConfig.loadWithOptions {} (onlyFile "/a/.cargo/config".toList) (fun _ => .ok onlyDoc) "/a/x".toList {} with
  | ok x =>
    cases e2 : EConfig.loadWithOptions {} (onlyFile "/b/c/.cargo/config.toml".toList) (fun _ => .ok onlyDoc) "/b/c".toList {} with
    | ok x' =>
      rw [e1, e2] at h3
      exact ⟨x.1, x.2, x'.1, x'.2, rfl, rfl, h3, C81_answers onlyFile_same e1 e2 ⟨rfl, fun _ _ _ _ => rfl, fun _ _ => rfl⟩⟩
    | err e => rw [e2] at h2; cases h2
    | panic => rw [e2] at h2; cases h2
  | err e => rw [e1] at h1; cases h1
  | panic => rw [e1] at h1; cases h1

end CC
