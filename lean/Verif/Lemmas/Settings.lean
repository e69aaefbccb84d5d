import Verif.Spec.Settings
import Verif.Props.EndToEnd
import Verif.Lemmas.Outcome
import Verif.Props.Queries
/-
What a setting depends on: lemmas for C82.
-/
namespace CC

theorem saidAt_append (p q : List Str) (docs : List (Path × Toml)) :
    saidAt (p ++ q) docs = (saidAt p docs).filterMap fun (f, t) => (t.at q).map fun x => (f, x) := by
  unfold saidAt
  rw [List.filterMap_filterMap]
  congr 1
  funext d
  obtain ⟨f, t⟩ := d
  simp only [Toml.at_append]
  cases t.at p <;> rfl

theorem saidAt_deeper {p : List Str} {docs docs' : List (Path × Toml)} (h : saidAt p docs = saidAt p docs') (q : List Str) :
    saidAt (p ++ q) docs = saidAt (p ++ q) docs' := by
  rw [saidAt_append, saidAt_append, h]

theorem firstSome_head {α β : Type} (g : α → Option β) : ∀ l : List α, firstSome (l.map g) = (l.filterMap g).head?
  | [] => rfl
  | a :: l => by
    simp only [List.map_cons, List.filterMap_cons]
    cases h : g a with
    | none => exact firstSome_head g l
    | some b => rfl

theorem readEnv_agree {α : Type} {look look' : Str → Option OsStr} {l : List (Source α)} (h : ∀ n ∈ l.map Prod.fst, look n = look' n) :
    readEnv look l = readEnv look' l := by
  induction l with
  | nil => rfl
  | cons x l ih =>
    obtain ⟨n, rd⟩ := x
    simp only [readEnv]
    rw [h n (by simp), ih fun m hm => h m (by simp only [List.map_cons, List.mem_cons]; exact .inr hm)]

theorem bind_some_self {α : Type} (x : Option α) : x.bind some = x := by cases x <;> rfl

/-- What the documents say about a single-valued setting depends only on what they have at its place. -/
theorem docs_agree {docs docs' : List (Path × Toml)} (k : ScalarKey) (h : saidAt k.place docs = saidAt k.place docs') :
    firstSome (docs.map fun (f, t) => (t.at (k.path t.envIsTable)).map fun x => (x, Definition.path f)) =
      firstSome (docs'.map fun (f, t) => (t.at (k.path t.envIsTable)).map fun x => (x, Definition.path f)) := by
  rw [firstSome_head, firstSome_head]
  have key : ∃ g : Toml → Option Toml, ∀ t : Toml, t.at (k.path t.envIsTable) = (t.at k.place).bind g := by
    cases k with
    | envValue k =>
      refine ⟨fun u => match u with
        | .tbl l => Toml.at (.tbl l) ["value".toList]
        | u => some u, fun t => ?_⟩
      simp only [ScalarKey.path, ScalarKey.place]
      obtain ⟨x, hx⟩ : ∃ x, t.at ["env".toList, k] = x := ⟨_, rfl⟩
      by_cases ht : ∃ l, x = some (.tbl l)
      · obtain ⟨l, rfl⟩ := ht
        rw [if_pos (by unfold Toml.envIsTable; rw [hx]; rfl), hx,
          show ["env".toList, k, "value".toList] = ["env".toList, k] ++ ["value".toList] from rfl, Toml.at_append, hx]
        rfl
      · rw [if_neg, hx]
        · cases x with
          | none => rfl
          | some u => cases u with
            | tbl l => exact absurd ⟨l, rfl⟩ ht
            | _ => rfl
        · unfold Toml.envIsTable
          rw [hx]
          cases x with
          | none => simp
          | some u => cases u with
            | tbl l => exact absurd ⟨l, rfl⟩ ht
            | _ => simp
    | envForce k =>
      refine ⟨fun u => u.at ["force".toList], fun t => ?_⟩
      exact Toml.at_append t ["env".toList, k] ["force".toList]
    | envRelative k =>
      refine ⟨fun u => u.at ["relative".toList], fun t => ?_⟩
      exact Toml.at_append t ["env".toList, k] ["relative".toList]
    | _ => exact ⟨some, fun t => (bind_some_self _).symm⟩
  obtain ⟨g, hg⟩ := key
  have e : ∀ ds : List (Path × Toml), (ds.filterMap fun (f, t) => (t.at (k.path t.envIsTable)).map fun x => (x, Definition.path f)) =
      (saidAt k.place ds).filterMap fun (f, u) => (g u).map fun x => (x, Definition.path f) := by
    intro ds
    unfold saidAt
    rw [List.filterMap_filterMap]
    congr 1
    funext d
    obtain ⟨f, t⟩ := d
    simp only [hg]
    cases t.at k.place <;> rfl
  rw [e, e, h]

theorem source_agree {look look' : Str → Option OsStr} {docs docs' : List (Path × Toml)} (k : ScalarKey)
    (hv : ∀ n ∈ k.sources.map Prod.fst, look n = look' n) (h : saidAt k.place docs = saidAt k.place docs') :
    k.source look docs = k.source look' docs' := by
  unfold ScalarKey.source
  have e : readEnv look k.consulted = readEnv look' k.consulted := by
    unfold ScalarKey.consulted
    by_cases hk : k = .cargoNewVcs
    · simp only [if_pos hk, readEnv]
    · simp only [if_neg hk]; exact readEnv_agree hv
  rw [e, docs_agree k h]

theorem listsIn_iff {split : Bool} {path : List Str} {docs : List (Path × Toml)} {xs : List (Repr' × List (Val Str))} :
    ListsIn split path docs xs ↔
      ListRel (fun (d : Path × Toml) x => ∃ ws, TomlList split d.2 x.1 ws ∧ x.2 = ws.map fun w => ⟨w, some (.path d.1)⟩)
        (saidAt path docs) xs := by
  constructor
  · intro h
    induction h with
    | nil => exact .nil
    | unset e _ ih =>
      simp only [saidAt, List.filterMap_cons, e, Option.map_none]
      exact ih
    | set e t _ ih =>
      simp only [saidAt, List.filterMap_cons, e, Option.map_some]
      exact .cons ⟨_, t, rfl⟩ ih
  · induction docs generalizing xs with
    | nil => intro h; cases h; exact .nil
    | cons d docs ih =>
      intro h
      obtain ⟨f, t⟩ := d
      simp only [saidAt, List.filterMap_cons] at h
      cases hx : t.at path with
      | none => rw [hx] at h; exact .unset hx (ih h)
      | some u =>
        rw [hx] at h
        cases h with
        | @cons _ x _ _ h1 h2 =>
          obtain ⟨r, l⟩ := x
          obtain ⟨ws, h3, rfl⟩ := h1
          exact .set hx h3 (ih h2)

theorem listSource_agree {look look' : Str → Option OsStr} {docs docs' : List (Path × Toml)} (k : ListKey)
    (hv : ∀ n ∈ k.sources.map Prod.fst, look n = look' n) (h : saidAt k.path docs = saidAt k.path docs')
    {y : Option (Repr' × List (Val Str))} (hy : k.Source look docs y) : k.Source look' docs' y := by
  unfold ListKey.Source at hy ⊢
  rw [← readEnv_agree hv]
  simp only [listsIn_iff, ← h] at hy ⊢
  exact hy

theorem progSource_agree {look look' : Str → Option OsStr} {docs docs' : List (Path × Toml)} (k : ProgKey)
    (hv : ∀ n ∈ k.sources.map Prod.fst, look n = look' n) (h : saidAt k.path docs = saidAt k.path docs')
    {y : Option (Repr' × List (Val Str))} (hy : k.Source look docs y) : k.Source look' docs' y := by
  unfold ProgKey.Source at hy ⊢
  rw [← readEnv_agree hv]
  simp only [listsIn_iff, ← h] at hy ⊢
  exact hy

/-- A single-valued setting is determined by how it is written in TOML and where it is from. -/
theorem scalar_inj (k : ScalarKey) {a b : Config}
    (h : (k.get a).map (fun v => (v.val.toml, v.defn)) = (k.get b).map fun v => (v.val.toml, v.defn)) : k.get a = k.get b := by
  have key : ∀ {α : Type} (f : α → Atom) (hf : ∀ x y, (f x).toml = (f y).toml → x = y) (u v : Option (Val α)),
      (u.map (Val.map f)).map (fun v => (v.val.toml, v.defn)) = (v.map (Val.map f)).map (fun v => (v.val.toml, v.defn)) →
      u.map (Val.map f) = v.map (Val.map f) := by
    intro α f hf u v h
    cases u with
    | none => cases v with
      | none => rfl
      | some v => cases h
    | some u => cases v with
      | none => cases h
      | some v =>
        obtain ⟨u, d⟩ := u
        obtain ⟨v, e⟩ := v
        simp only [Option.map_some, Val.map, Option.some.injEq, Prod.mk.injEq] at h
        obtain ⟨h1, rfl⟩ := h
        rw [hf _ _ h1]
  have hstr : ∀ x y : Str, (Atom.str x).toml = (Atom.str y).toml → x = y := fun x y h => by cases h; rfl
  have hint : ∀ x y : Int, (Atom.int x).toml = (Atom.int y).toml → x = y := fun x y h => by cases h; rfl
  have hnat : ∀ x y : Nat, (Atom.nat x).toml = (Atom.nat y).toml → x = y := fun x y h => by
    simp only [Atom.toml, Toml.int.injEq] at h; omega
  have hbool : ∀ x y : Bool, (Atom.bool x).toml = (Atom.bool y).toml → x = y := fun x y h => by cases h; rfl
  have hvcs : ∀ x y : Vcs, (Atom.vcs x).toml = (Atom.vcs y).toml → x = y := by
    intro x y h; cases x <;> cases y <;> first | rfl | (exact absurd (Toml.str.inj h) (by decide))
  have hprot : ∀ x y : Protocol, (Atom.protocol x).toml = (Atom.protocol y).toml → x = y := by
    intro x y h; cases x <;> cases y <;> first | rfl | (exact absurd (Toml.str.inj h) (by decide))
  have hcolor : ∀ x y : Color, (Atom.color x).toml = (Atom.color y).toml → x = y := by
    intro x y h; cases x <;> cases y <;> first | rfl | (exact absurd (Toml.str.inj h) (by decide))
  have hwhen : ∀ x y : When, (Atom.when x).toml = (Atom.when y).toml → x = y := by
    intro x y h; cases x <;> cases y <;> first | rfl | (exact absurd (Toml.str.inj h) (by decide))
  have hfreq : ∀ x y : Frequency, (Atom.frequency x).toml = (Atom.frequency y).toml → x = y := by
    intro x y h; cases x <;> cases y <;> first | rfl | (exact absurd (Toml.str.inj h) (by decide))
  cases k with
  | envValue k =>
    have := key Atom.str hstr ((a.env.get k).map (·.theValue)) ((b.env.get k).map (·.theValue))
    simp only [ScalarKey.get, Option.map_map, Function.comp_def] at h this ⊢
    exact this h
  | _ => first | exact key _ hstr _ _ h | exact key _ hint _ _ h | exact key _ hnat _ _ h | exact key _ hbool _ _ h
               | exact key _ hvcs _ _ h | exact key _ hprot _ _ h | exact key _ hcolor _ _ h | exact key _ hwhen _ _ h
               | exact key _ hfreq _ _ h

/-! ### the fields of a loaded config -/

variable {p p' : ProcEnv} {fs fs' : Fs} {toml toml' : Str → Res Toml} {cwd cwd' : Path} {o o' : Options} {c c' : EConfig} {s s' : Cells}
  {look look' : Str → Option OsStr} {home home' : Option Path} {docs docs' : List (Path × Toml)}

/-- The unresolved config behind a loaded one. -/
structure Behind (cwd : Path) (look : Str → Option OsStr) (docs : List (Path × Toml)) (c : EConfig) (de : Config) : Prop where
  scalar : ∀ k : ScalarKey, (k.get de).map (fun v => (v.val.toml, v.defn)) = (k.source look docs).map fun x => (x.1, some x.2)
  list : ∀ k : ListKey, k.Source look docs (k.get de)
  prog : ∀ k : ProgKey, k.Source look docs (k.get de)
  build : EBuild.fromUnresolved cwd de.build = .ok c.build
  doc : EDoc.fromUnresolved cwd de.doc = .ok c.doc
  env : Res.mapVals (EEnvValue.fromUnresolved cwd) de.env = .ok c.env
  rest : c = { alias := de.alias.mapVals EStringList.fromUnresolved
               build := c.build
               doc := c.doc
               env := c.env
               futureIncompatReport := { frequency := de.futureIncompatReport.frequency.map Val.val }
               cargoNew := { vcs := de.cargoNew.vcs.map Val.val }
               http := EHttp.fromUnresolved de.http
               net := ENet.fromUnresolved de.net
               registries := de.registries.mapVals ERegistries.fromUnresolved
               registry := ERegistry.fromUnresolved de.registry
               deTarget := de.target
               term := ETerm.fromUnresolved de.term
               cx := c.cx }
  sorted : de.target.Sorted
  flags1 : de.build.overrideTargetRustflags = true ↔
    (look "CARGO_ENCODED_RUSTFLAGS".toList ≠ none ∨ look "RUSTFLAGS".toList ≠ none)
  flags2 : de.build.overrideTargetRustdocflags = true ↔
    (look "CARGO_ENCODED_RUSTDOCFLAGS".toList ≠ none ∨ look "RUSTDOCFLAGS".toList ≠ none)

theorem Loads.behind (h : Loads p fs toml cwd o look home docs c s) : ∃ de, Behind cwd look docs c de := by
  obtain ⟨de, cx, raws, h1, h2, h3, h4, h5, h6, h7⟩ := loaded_unpack h.tables h.map h.loaded h.env h.home h.docs
  have hwf := load_wf (fun s c => toml_wf s c) h5
  simp only [EConfig.fromUnresolved, Res.bind_eq_ok, Res.pure_eq] at h4
  obtain ⟨de', h0, b, hb, d, hd, en, he, e⟩ := h4
  have e := Res.ok.inj e
  subst e
  have hsup := C22_suppressed h0
  rw [h3] at hsup
  subst h1
  refine ⟨de', ⟨fun k => h3 ▸ source_scalar h5 h6 h7 h2 h0 k, fun k => h3 ▸ source_list h5 h6 h7 h2 h0 k,
    fun k => h3 ▸ source_prog h5 h6 h7 h0 k, hb, hd, he, rfl, ?_, hsup.1, hsup.2⟩⟩
  rw [(C25_local h0).2]
  exact hwf.target

theorem Behind.scalar_same {de de' : Config} (h : Behind cwd look docs c de) (h' : Behind cwd' look' docs' c' de') (k : ScalarKey)
    (hv : ∀ n ∈ k.sources.map Prod.fst, look n = look' n) (hd : saidAt k.place docs = saidAt k.place docs') : k.get de = k.get de' := by
  refine scalar_inj k ?_
  rw [h.scalar k, h'.scalar k, source_agree k hv hd]

theorem Behind.list_same {de de' : Config} (h : Behind cwd look docs c de) (h' : Behind cwd' look' docs' c' de') (k : ListKey)
    (hv : ∀ n ∈ k.sources.map Prod.fst, look n = look' n) (hd : saidAt k.path docs = saidAt k.path docs') : k.get de = k.get de' :=
  listSource_unique (listSource_agree k hv hd (h.list k)) (h'.list k)

theorem Behind.prog_same {de de' : Config} (h : Behind cwd look docs c de) (h' : Behind cwd' look' docs' c' de') (k : ProgKey)
    (hv : ∀ n ∈ k.sources.map Prod.fst, look n = look' n) (hd : saidAt k.path docs = saidAt k.path docs') : k.get de = k.get de' :=
  progSource_unique (progSource_agree k hv hd (h.prog k)) (h'.prog k)

theorem optMap_inj {α β : Type} {f : α → β} (hf : ∀ x y, f x = f y → x = y) {u v : Option α} (h : u.map f = v.map f) : u = v := by
  cases u with
  | none => cases v with
    | none => rfl
    | some v => cases h
  | some u => cases v with
    | none => cases h
    | some v => rw [hf _ _ (Option.some.inj h)]

theorem valMap_inj {α β : Type} {f : α → β} (hf : ∀ x y, f x = f y → x = y) (x y : Val α) (h : x.map f = y.map f) : x = y := by
  obtain ⟨x, d⟩ := x
  obtain ⟨y, e⟩ := y
  simp only [Val.map, Val.mk.injEq] at h
  rw [hf _ _ h.1, h.2]

theorem optStr_inj {u v : Option (Val Str)} (h : u.map (Val.map Atom.str) = v.map (Val.map Atom.str)) : u = v :=
  optMap_inj (valMap_inj fun _ _ h => Atom.str.inj h) h

end CC
