import Verif.Lemmas.EasyPortable
/-
C75: the text shown for the place a value comes from.
-/
namespace CC

/-- The places at which values of a config can be found: a file given by an absolute path, or a variable. -/
inductive Findable : Definition → Prop where
  | file (p : Path) : Absolute p → Findable (.path p)
  | var (n : Str) : Findable (.environment n)

theorem display_var (n : Str) : (Definition.environment n).display = "environment variable `".toList ++ (n ++ "`".toList) := by
  show ("environment variable `".toList ++ n) ++ "`".toList = _
  rw [List.append_assoc]

theorem display_file_var (r n : Str) : (Definition.path ('/' :: r)).display ≠ (Definition.environment n).display := by
  rw [display_var]
  have h : "environment variable `".toList = 'e' :: "nvironment variable `".toList := by decide
  rw [h, List.cons_append]
  generalize "nvironment variable `".toList ++ (n ++ "`".toList) = x
  intro e
  exact absurd (List.cons.inj e).1 (by decide)

/-- C75: different places are shown as different texts. -/
theorem C75_unambiguous (d d' : Definition) (h : Findable d) (h' : Findable d') (e : d.display = d'.display) : d = d' := by
  cases h with
  | file p hp =>
    cases h' with
    | file q hq => exact congrArg Definition.path e
    | var n => obtain ⟨r, rfl⟩ := hp; exact absurd e (display_file_var r n)
  | var n =>
    cases h' with
    | file q hq => obtain ⟨r, rfl⟩ := hq; exact absurd e.symm (display_file_var r n)
    | var m =>
      rw [display_var, display_var] at e
      rw [List.append_cancel_right (List.append_cancel_left e)]

/-- C75: without the restriction to absolute paths the text can be ambiguous. -/
theorem C75_relative_ambiguous : (Definition.path "--config cli option".toList).display = (Definition.cli none).display ∧
    (Definition.path "environment variable `A`".toList).display = (Definition.environment "A".toList).display := ⟨rfl, by decide⟩

/-- Every file of the walk has an absolute path if the directories searched have. -/
theorem walk_absolute {ex : Path → Bool} {cwd f : Path} {home : Option Path} (hc : Absolute cwd)
    (hh : ∀ h, home = some h → Absolute h) (hf : f ∈ walk ex cwd home) : Absolute f := by
  rcases mem_walk hf with ⟨d, hd, h⟩ | ⟨h, rfl, hx⟩
  · obtain ⟨name, -, rfl⟩ := isConfigOf_name h
    exact absolute_join (absolute_join (ancestors_absolute hc hd))
  · obtain ⟨name, -, rfl⟩ := isConfigOf_name hx
    exact absolute_join (hh h rfl)

variable {fs : Fs} {toml : Str → Res Toml} {cwd : Path} {home : Option Path} {de : Config}

/-- C75: after loading the files with `de::Config::load_with_cwd` from an absolute directory, the text shown for where a single value is
from is the path of a file that was read and has this value at this place. -/
theorem C75_loaded (hc : Absolute cwd) (hh : ∀ h, home = some h → Absolute h)
    (hl : loadConfig fs (fun s => toml s >>= Config.de) cwd home = .ok de) (k : ScalarKey) (v : Val Atom) (hv : k.get de = some v) :
    ∃ d, v.defn = some d ∧ Findable d ∧ d.display ∈ walk fs.ex cwd home ∧
      ∃ text raw w, fs.read d.display = .ok text ∧ (toml text >>= Config.de) = .ok raw ∧ k.get raw = some w ∧ w.val = v.val := by
  obtain ⟨f, hf, hd, hr⟩ := C11_scalar (fun s c => toml_wf s c) hl k v hv
  exact ⟨.path f, hd, .file f (walk_absolute hc hh hf), hf, hr⟩

/-- C75: the same for the elements of lists and commands. -/
theorem C75_loaded_elements (hc : Absolute cwd) (hh : ∀ h, home = some h → Absolute h)
    (hl : loadConfig fs (fun s => toml s >>= Config.de) cwd home = .ok de) (k : ListKey ⊕ ProgKey) (r : Repr') (l : List (Val Str))
    (hk : k.elim (fun k => k.get de) (fun k => k.get de) = some (r, l)) (v : Val Str) (hv : v ∈ l) :
    ∃ d, v.defn = some d ∧ Findable d ∧ d.display ∈ walk fs.ex cwd home ∧
      ∃ text raw w l', fs.read d.display = .ok text ∧ (toml text >>= Config.de) = .ok raw ∧
        k.elim (fun k => k.get raw) (fun k => k.get raw) = some (r, l') ∧ w ∈ l' ∧ w.val = v.val := by
  obtain ⟨f, hf, hd, hr⟩ := C11_elements (fun s c => toml_wf s c) hl k r l hk v hv
  exact ⟨.path f, hd, .file f (walk_absolute hc hh hf), hf, hr⟩

/-- The sample files of C57: `jobs` is shown to be from the nearer file. -/
example : Absolute "/w/p".toList ∧
    ((loadConfig sampleFs (fun s => sampleToml s >>= Config.de) "/w/p".toList none).toOption.bind fun de =>
      (ScalarKey.buildJobs.get de).bind fun v => v.defn.map Definition.display) = some "/w/p/.cargo/config".toList :=
  ⟨⟨_, rfl⟩, by decide +kernel⟩

/-- A file and a variable of the same name are shown differently. -/
example : (Definition.path "/A".toList).display ≠ (Definition.environment "/A".toList).display := fun h => by
  cases C75_unambiguous _ _ (.file "/A".toList ⟨_, rfl⟩) (.var "/A".toList) h

end CC
