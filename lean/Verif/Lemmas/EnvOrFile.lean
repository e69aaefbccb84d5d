import Verif.Spec.EnvOrFile
import Verif.Props.Settings
import Verif.Props.Spelling
/-
Lemmas for C92: what a setting stated in a variable or in the config file of the current directory resolves to.
-/
namespace CC

variable {p p' : ProcEnv} {fs fs' : Fs} {toml toml' : Str → Res Toml} {cwd cwd' : Path} {o o' : Options} {c c' : EConfig} {s s' : Cells}
  {look look' : Str → Option OsStr} {home home' : Option Path} {docs docs' : List (Path × Toml)}

theorem readEnv_unset {α : Type} (look : Str → Option OsStr) (l : List (Source α)) (h : ∀ n ∈ l.map Prod.fst, look n = none) :
    readEnv look l = none := by
  induction l with
  | nil => rfl
  | cons x l ih =>
    obtain ⟨n, rd⟩ := x
    simp only [readEnv, h n (by simp)]
    exact ih fun m hm => h m (by simp only [List.map_cons, List.mem_cons]; exact .inr hm)

theorem source_inEnv {k : ScalarKey} {a : Atom} (h : k.InEnv look a) : ∃ n, k.source look docs = some (a.toml, .environment n) := by
  obtain ⟨n, h⟩ := h
  exact ⟨n, by simp only [ScalarKey.source, h, Option.map_some]⟩

theorem source_inFile {k : ScalarKey} {a : Atom} (h : k.InFileHere cwd look docs a) :
    ∃ f, IsConfigHere cwd f ∧ k.source look docs = some (a.toml, .path f) := by
  obtain ⟨h1, f, t, rest, rfl, hf, ht⟩ := h
  refine ⟨f, hf, ?_⟩
  have : readEnv look k.consulted = none := by
    unfold ScalarKey.consulted
    split
    · rfl
    · exact readEnv_unset look _ h1
  simp only [ScalarKey.source, this, List.map_cons, ht, Option.map_some, firstSome]

theorem base_here {f base : Path} (hf : IsConfigHere cwd f) (h : BaseDir cwd (.path f) base) : SamePath cwd base := by
  obtain ⟨a, b, h⟩ := h
  have key : ∀ x : Path, Path.Simple x → Path.components (Path.join (Path.join cwd ".cargo".toList) x) =
      Path.components cwd ++ [.normal ".cargo".toList, .normal x] := by
    intro x hx
    rw [Path.components_join _ _ hx, Path.components_join _ _ simple_dotcargo, List.append_assoc]
    rfl
  rcases hf with rfl | rfl
  · rw [key _ simple_config] at h
    exact (List.append_inj' h rfl).1
  · rw [key _ simple_configtoml] at h
    exact (List.append_inj' h rfl).1

theorem programPath_here {n t : Str} {f x x' : Path} (hf : IsConfigHere cwd f) (h : ProgramPath cwd ⟨t, some (.environment n)⟩ x)
    (h' : ProgramPath cwd ⟨t, some (.path f)⟩ x') : SamePath x x' := by
  cases h with
  | name _ _ h1 h2 => cases h' with
    | name => rfl
    | absolute => rfl
    | relative _ _ _ h3 => exact absurd h3 (by simp [h1, h2])
  | absolute => cases h' with
    | name => rfl
    | absolute => rfl
    | relative _ _ _ _ h3 => exact absurd rfl (h3 _)
  | relative _ _ base h1 h2 hb => cases h' with
    | name _ _ h3 h4 => exact absurd h1 (by simp [h3, h4])
    | absolute => exact absurd rfl (h2 _)
    | relative _ _ base' _ _ hb' =>
      cases hb
      exact join_samePath _ (base_here hf hb')

theorem dirPath_here {n t : Str} {f x x' : Path} (hf : IsConfigHere cwd f) (h : DirPath cwd ⟨t, some (.environment n)⟩ x)
    (h' : DirPath cwd ⟨t, some (.path f)⟩ x') : SamePath x x' := by
  cases h with
  | absolute => cases h' with
    | absolute => rfl
    | relative _ _ _ h3 => exact absurd rfl (h3 _)
  | relative _ _ base h2 hb => cases h' with
    | absolute => exact absurd rfl (h2 _)
    | relative _ _ base' _ hb' =>
      cases hb
      exact join_samePath _ (base_here hf hb')

theorem target_here {n w : Str} {f : Path} {t t' : TargetTriple} (hf : IsConfigHere cwd f)
    (h : TargetNamed cwd ⟨w, some (.environment n)⟩ t) (h' : TargetNamed cwd ⟨w, some (.path f)⟩ t') : SameTarget t t' := by
  cases h with
  | triple _ _ h1 => cases h' with
    | triple => exact ⟨rfl, .none⟩
    | spec _ _ _ _ _ h2 => exact absurd h2 h1
  | spec _ _ g stem base h1 h2 h3 hb => cases h' with
    | triple _ _ h4 => exact absurd h1 h4
    | spec _ _ g' stem' base' _ h5 h6 hb' =>
      cases hb
      refine ⟨?_, .some (join_samePath _ (base_here hf hb'))⟩
      have e : g = g' := by
        have := h2.symm.trans h5
        cases this
        rfl
      subst e
      obtain ⟨st, _, hu⟩ := C16_stem_unique g
      exact (hu _ h3).trans (hu _ h6).symm

theorem targets_here {n : Str} {f : Path} (hf : IsConfigHere cwd f) {ws : List Str} {l l' : List TargetTriple}
    (h : ListRel (TargetNamed cwd) (ws.map fun w => ⟨w, some (.environment n)⟩) l)
    (h' : ListRel (TargetNamed cwd) (ws.map fun w => ⟨w, some (.path f)⟩) l') : ListRel SameTarget l l' := by
  induction ws generalizing l l' with
  | nil => cases h; cases h'; exact .nil
  | cons w ws ih =>
    simp only [List.map_cons] at h h'
    cases h with
    | cons a b => cases h' with
      | cons a' b' => exact .cons (target_here hf a a') (ih b b')

theorem listsIn_none {sp : Bool} {path : List Str} {docs : List (Path × Toml)} {xs : List (Repr' × List (Val Str))}
    (h : ListsIn sp path docs xs) (hn : ∀ f t, (f, t) ∈ docs → t.at path = none) : xs = [] := by
  induction h with
  | nil => rfl
  | unset _ _ ih => exact ih fun f t hm => hn f t (List.mem_cons_of_mem _ hm)
  | set h1 => rw [hn _ _ List.mem_cons_self] at h1; cases h1

theorem joinedProg_one {r : Repr'} {l : List (Val Str)} {y : Option (Repr' × List (Val Str))} (h : JoinedProg [(r, l)] y) :
    ∃ r', y = some (r', l) := by
  cases h with
  | array _ _ => exact ⟨.array, by simp⟩
  | string _ => exact ⟨r, rfl⟩

theorem list_inEnv {k : ListKey} {ws : List Str} (h : k.InEnv look ws) {y : Option (Repr' × List (Val Str))} (hy : k.Source look docs y) :
    ∃ n r, y = some (r, ws.map fun w => ⟨w, some (.environment n)⟩) := by
  obtain ⟨n, r, h⟩ := h
  unfold ListKey.Source at hy
  simp only [h] at hy
  exact ⟨n, r, hy⟩

theorem list_inFile {k : ListKey} {ws : List Str} (h : k.InFileHere cwd look docs ws) {y : Option (Repr' × List (Val Str))}
    (hy : k.Source look docs y) : ∃ f r, IsConfigHere cwd f ∧ y = some (r, ws.map fun w => ⟨w, some (.path f)⟩) := by
  obtain ⟨h1, f, t, rest, x, r, rfl, hf, hx, hl, hn⟩ := h
  unfold ListKey.Source at hy
  simp only [readEnv_unset look _ h1] at hy
  obtain ⟨xs, g, j⟩ := hy
  cases g with
  | unset h2 => rw [hx] at h2; cases h2
  | set h2 h3 h4 =>
    cases hx.symm.trans h2
    cases listsIn_none h4 hn
    obtain ⟨rfl, rfl⟩ := tomlList_unique hl h3
    cases j with
    | array _ hr => exact ⟨f, .array, hf, by simp⟩
    | string hr => exact ⟨f, _, hf, rfl⟩

/-- The values of a single-valued setting are determined by how they are written in TOML. -/
theorem scalarVal_inj (k : ScalarKey) {a b : Config}
    (h : (k.get a).map (fun v => v.val.toml) = (k.get b).map fun v => v.val.toml) : (k.get a).map Val.val = (k.get b).map Val.val := by
  have key : ∀ {α : Type} (f : α → Atom) (hf : ∀ x y, (f x).toml = (f y).toml → x = y) (u v : Option (Val α)),
      (u.map (Val.map f)).map (fun v => v.val.toml) = (v.map (Val.map f)).map (fun v => v.val.toml) →
      (u.map (Val.map f)).map Val.val = (v.map (Val.map f)).map Val.val := by
    intro α f hf u v h
    cases u with
    | none => cases v with
      | none => rfl
      | some v => cases h
    | some u => cases v with
      | none => cases h
      | some v =>
        simp only [Option.map_some, Val.map, Option.some.injEq] at h ⊢
        rw [hf _ _ h]
  have hstr : ∀ x y : Str, (Atom.str x).toml = (Atom.str y).toml → x = y := fun x y h => by cases h; rfl
  have hint : ∀ x y : Int, (Atom.int x).toml = (Atom.int y).toml → x = y := fun x y h => by cases h; rfl
  have hnat : ∀ x y : Nat, (Atom.nat x).toml = (Atom.nat y).toml → x = y := fun x y h => by
    simp only [Atom.toml, Toml.int.injEq] at h; omega
  have hbool : ∀ x y : Bool, (Atom.bool x).toml = (Atom.bool y).toml → x = y := fun x y h => by cases h; rfl
  have hvcs : ∀ x y : Vcs, (Atom.vcs x).toml = (Atom.vcs y).toml → x = y := by
    intro x y h; cases x <;> cases y <;> first | rfl | (exact absurd (Toml.str.inj h) (by decide))
  have hprot : ∀ x y : Protocol, (Atom.protocol x).toml = (Atom.protocol y).toml → x = y := by
    intro x y h; cases x <;> cases y <;> first | rfl | (exact absurd (Toml.str.inj h) (by decide))
  have hcolor : ∀ x y : Color, (Atom.color x).toml = (Atom.color y).toml → x = y := by
    intro x y h; cases x <;> cases y <;> first | rfl | (exact absurd (Toml.str.inj h) (by decide))
  have hwhen : ∀ x y : When, (Atom.when x).toml = (Atom.when y).toml → x = y := by
    intro x y h; cases x <;> cases y <;> first | rfl | (exact absurd (Toml.str.inj h) (by decide))
  have hfreq : ∀ x y : Frequency, (Atom.frequency x).toml = (Atom.frequency y).toml → x = y := by
    intro x y h; cases x <;> cases y <;> first | rfl | (exact absurd (Toml.str.inj h) (by decide))
  cases k with
  | envValue k =>
    have := key Atom.str hstr ((a.env.get k).map (·.theValue)) ((b.env.get k).map (·.theValue))
    simp only [ScalarKey.get, Option.map_map, Function.comp_def] at h this ⊢
    exact this h
  | _ => first | exact key _ hstr _ _ h | exact key _ hint _ _ h | exact key _ hnat _ _ h | exact key _ hbool _ _ h
               | exact key _ hvcs _ _ h | exact key _ hprot _ _ h | exact key _ hcolor _ _ h | exact key _ hwhen _ _ h
               | exact key _ hfreq _ _ h

end CC
