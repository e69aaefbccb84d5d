import Verif.Spec.Values
import Verif.Lemmas.ListSpelling
import Verif.Props.HandedOn
import Verif.Props.TargetDocs
import Verif.Props.Settings
/-
C103: only the values that the config files state matter, in the order of the files, not which files state them.
-/
namespace CC

variable {p p' : ProcEnv} {fs fs' : Fs} {toml toml' : Str → Res Toml} {cwd cwd' : Path} {o o' : Options} {c c' : EConfig} {s s' : Cells}
  {look look' : Str → Option OsStr} {home home' : Option Path} {docs docs' : List (Path × Toml)}

theorem valuesAt_said (path : List Str) (docs : List (Path × Toml)) : valuesAt path docs = (saidAt path docs).map Prod.snd := by
  unfold valuesAt saidAt
  rw [List.map_filterMap]
  congr 1
  funext d
  obtain ⟨f, t⟩ := d
  show t.at path = ((t.at path).map fun x => (f, x)).map Prod.snd
  cases t.at path <;> rfl

/-- A setting that is taken over as it is, is determined by how it is written in TOML. -/
theorem plain_inj {k : ScalarKey} {x y : Option Atom} (hx : k.plain c = some x) (hy : k.plain c' = some y)
    (h : x.map Atom.toml = y.map Atom.toml) : x = y := by
  have key : ∀ {α : Type} (f : α → Atom) (hf : ∀ x y, (f x).toml = (f y).toml → x = y) (u v : Option α),
      (u.map f).map Atom.toml = (v.map f).map Atom.toml → u.map f = v.map f := by
    intro α f hf u v h
    rw [Option.map_map, Option.map_map] at h
    rw [optMap_inj hf h]
  have hstr : ∀ x y : Str, (Atom.str x).toml = (Atom.str y).toml → x = y := fun x y h => by cases h; rfl
  have hint : ∀ x y : Int, (Atom.int x).toml = (Atom.int y).toml → x = y := fun x y h => by cases h; rfl
  have hnat : ∀ x y : Nat, (Atom.nat x).toml = (Atom.nat y).toml → x = y := fun x y h => by
    simp only [Atom.toml, Toml.int.injEq] at h; omega
  have hbool : ∀ x y : Bool, (Atom.bool x).toml = (Atom.bool y).toml → x = y := fun x y h => by cases h; rfl
  have hvcs : ∀ x y : Vcs, (Atom.vcs x).toml = (Atom.vcs y).toml → x = y := by
    intro x y h; cases x <;> cases y <;> first | rfl | (exact absurd (Toml.str.inj h) (by decide))
  have hprot : ∀ x y : Protocol, (Atom.protocol x).toml = (Atom.protocol y).toml → x = y := by
    intro x y h; cases x <;> cases y <;> first | rfl | (exact absurd (Toml.str.inj h) (by decide))
  have hcolor : ∀ x y : Color, (Atom.color x).toml = (Atom.color y).toml → x = y := by
    intro x y h; cases x <;> cases y <;> first | rfl | (exact absurd (Toml.str.inj h) (by decide))
  have hwhen : ∀ x y : When, (Atom.when x).toml = (Atom.when y).toml → x = y := by
    intro x y h; cases x <;> cases y <;> first | rfl | (exact absurd (Toml.str.inj h) (by decide))
  have hfreq : ∀ x y : Frequency, (Atom.frequency x).toml = (Atom.frequency y).toml → x = y := by
    intro x y h; cases x <;> cases y <;> first | rfl | (exact absurd (Toml.str.inj h) (by decide))
  cases k <;> cases hx <;> cases hy <;>
    first | exact key _ hstr _ _ h | exact key _ hint _ _ h | exact key _ hnat _ _ h | exact key _ hbool _ _ h
          | exact key _ hvcs _ _ h | exact key _ hprot _ _ h | exact key _ hcolor _ _ h | exact key _ hwhen _ _ h
          | exact key _ hfreq _ _ h

theorem firstSome_values {α : Type} (g : Toml → Option α) (docs : List (Path × Toml)) :
    (firstSome (docs.map fun (f, t) => (g t).map fun x => (x, Definition.path f))).map Prod.fst =
      (docs.filterMap fun (_, t) => g t).head? := by
  induction docs with
  | nil => rfl
  | cons d docs ih =>
    obtain ⟨f, t⟩ := d
    cases hg : g t with
    | none => simpa [firstSome, hg] using ih
    | some x => simp [firstSome, hg]

/-- The value of a setting with a fixed place is the first one stated. -/
theorem source_values (k : ScalarKey) (hk : ∀ e, k.path e = k.place) (hv : ∀ n ∈ k.sources.map Prod.fst, look n = look' n)
    (h : valuesAt k.place docs = valuesAt k.place docs') :
    (k.source look docs).map Prod.fst = (k.source look' docs').map Prod.fst := by
  unfold ScalarKey.source
  have e : readEnv look k.consulted = readEnv look' k.consulted := by
    unfold ScalarKey.consulted
    by_cases hk : k = .cargoNewVcs
    · simp only [if_pos hk, readEnv]
    · simp only [if_neg hk]; exact readEnv_agree hv
  have e2 : ∀ ds : List (Path × Toml),
      (firstSome (ds.map fun (f, t) => (t.at (k.path t.envIsTable)).map fun x => (x, Definition.path f))).map Prod.fst =
        (valuesAt k.place ds).head? := by
    intro ds
    simp only [hk]
    exact firstSome_values (fun t => t.at k.place) ds
  rw [e]
  generalize readEnv look' k.consulted = x
  match x with
  | some (some (n, a)) => rfl
  | some none => exact (e2 docs).trans ((congrArg _ h).trans (e2 docs').symm)
  | none => exact (e2 docs).trans ((congrArg _ h).trans (e2 docs').symm)

/-- C103, settings taken over as they are: if the variables of the setting are the same and the config files state the same values for
it, in the same order, the setting is the same, whichever files state them. -/
theorem C103_plain (h : Loads p fs toml cwd o look home docs c s) (h' : Loads p' fs' toml' cwd' o' look' home' docs' c' s')
    (k : ScalarKey) (hv : ∀ n ∈ k.sources.map Prod.fst, look n = look' n) (hd : valuesAt k.place docs = valuesAt k.place docs') :
    k.plain c = k.plain c' := by
  have e1 := fun x => C57_plain h k x
  have e2 := fun x => C57_plain h' k x
  have e3 : (k.plain c).isSome = (k.plain c').isSome := by cases k <;> rfl
  have e4 := fun x y => plain_inj (c := c) (c' := c') (k := k) (x := x) (y := y)
  have e5 : (k.plain c).isSome = true → ∀ e, k.path e = k.place := by
    intro hs e
    cases k <;> first | rfl | cases hs
  generalize k.plain c = a at *
  generalize k.plain c' = b at *
  cases a with
  | none => cases b with
    | none => rfl
    | some b => cases e3
  | some a => cases b with
    | none => cases e3
    | some b => rw [e4 a b rfl rfl (by rw [e1 a rfl, e2 b rfl, source_values k (e5 rfl) hv hd])]

/-- C103, programs: likewise, if the program that is chosen is an absolute path or a plain name. -/
theorem C103_programs (h : Loads p fs toml cwd o look home docs c s) (h' : Loads p' fs' toml' cwd' o' look' home' docs' c' s')
    (k : ScalarKey) (hv : ∀ n ∈ k.sources.map Prod.fst, look n = look' n) (hd : valuesAt k.place docs = valuesAt k.place docs')
    (hp : ∀ text d, k.source look docs = some (.str text, d) → PortableProgram text) : k.program c = k.program c' := by
  have e1 := fun x => C57_programs h k x
  have e2 := fun x => C57_programs h' k x
  have e3 : (k.program c).isSome = (k.program c').isSome := by cases k <;> rfl
  have e5 : (k.program c).isSome = true → ∀ e, k.path e = k.place := by
    intro hs e
    cases k <;> first | rfl | cases hs
  generalize k.program c = a at *
  generalize k.program c' = b at *
  cases a with
  | none => cases b with
    | none => rfl
    | some b => cases e3
  | some a => cases b with
    | none => cases e3
    | some b =>
      have hs := source_values k (e5 rfl) hv hd
      have g1 := e1 a rfl
      have g2 := e2 b rfl
      generalize k.source look docs = u at *
      generalize k.source look' docs' = v at *
      cases g1 with
      | none => cases g2 with
        | none => rfl
        | some g2 => cases hs
      | @some u a g1 => cases g2 with
        | none => cases hs
        | @some v b g2 =>
          obtain ⟨u, d⟩ := u
          obtain ⟨v, d'⟩ := v
          obtain ⟨t, e, g1⟩ := g1
          obtain ⟨t', e', g2⟩ := g2
          dsimp only at e e'
          subst e
          subst e'
          cases hs
          have hp := hp t d rfl
          rw [programPath_portable (v := ⟨t, _⟩) hp g1, programPath_portable (v := ⟨t, _⟩) hp g2]

/-- Lists with the same texts, written in the same way. -/
def SameTexts (x x' : Repr' × List (Val Str)) : Prop := x.1 = x'.1 ∧ x.2.map Val.val = x'.2.map Val.val

theorem listsIn_values {split : Bool} {path : List Str} (hd : valuesAt path docs = valuesAt path docs')
    {xs xs' : List (Repr' × List (Val Str))} (h : ListsIn split path docs xs) (h' : ListsIn split path docs' xs') :
    ListRel SameTexts xs xs' := by
  rw [listsIn_iff] at h h'
  rw [valuesAt_said, valuesAt_said] at hd
  generalize saidAt path docs = l at *
  generalize saidAt path docs' = l' at *
  induction h generalizing l' xs' with
  | nil => cases l' with
    | nil => cases h'; exact .nil
    | cons => cases hd
  | cons h1 _ ih => cases l' with
    | nil => cases hd
    | cons d' l' => cases h' with
      | cons h2 h3 =>
        simp only [List.map_cons, List.cons.injEq] at hd
        refine .cons ?_ (ih _ h3 hd.2)
        obtain ⟨ws, t1, e1⟩ := h1
        obtain ⟨ws', t2, e2⟩ := h2
        rw [hd.1] at t1
        obtain ⟨e3, e4⟩ := tomlList_unique t1 t2
        refine ⟨e3, ?_⟩
        rw [e1, e2, e4]
        simp [Function.comp_def]

theorem EFlags_ext {x y : EFlags} (h : x.flags = y.flags) : x = y := by
  cases x
  cases y
  cases h
  rfl

/-- A list without the places of its strings. -/
def justTexts (x : Repr' × List (Val Str)) : Repr' × List Str := (x.1, x.2.map Val.val)

theorem joined_texts {xs : List (Repr' × List (Val Str))} {y : Option (Repr' × List (Val Str))} (h : JoinedList xs y) :
    JoinedList (xs.map justTexts) (y.map justTexts) := by
  cases h with
  | unset => exact .unset
  | array h1 h2 =>
    have := JoinedList.array (xs := xs.map justTexts) (by simpa using h1) (fun x hx => by
      obtain ⟨a, ha, rfl⟩ := List.mem_map.1 hx
      exact h2 a ha)
    simp only [Option.map_some, justTexts, List.map_flatten, List.map_map]
    simpa [← List.map_reverse, Function.comp_def, justTexts] using this
  | string h1 =>
    refine .string fun y hy => ?_
    rw [← List.map_cons (f := justTexts)] at hy
    obtain ⟨a, ha, rfl⟩ := List.mem_map.1 hy
    exact h1 a ha

theorem joined_values {xs xs' : List (Repr' × List (Val Str))} (h : ListRel SameTexts xs xs') {y y' : Option (Repr' × List (Val Str))}
    (hy : JoinedList xs y) (hy' : JoinedList xs' y') : textsOf y = textsOf y' := by
  have e : xs.map justTexts = xs'.map justTexts := by
    clear hy hy'
    induction h with
    | nil => rfl
    | cons h1 _ ih =>
      simp only [List.map_cons, ih, justTexts, h1.1, h1.2]
  have h1 := joined_texts hy
  rw [e] at h1
  have h2 := congrArg (Option.map Prod.snd) (joinedList_unique h1 (joined_texts hy'))
  simpa only [Option.map_map, Function.comp_def, justTexts, textsOf] using h2

/-- The texts of a list depend only on the values stated. -/
theorem listSource_values (k : ListKey) (hv : ∀ n ∈ k.sources.map Prod.fst, look n = look' n)
    (hd : valuesAt k.path docs = valuesAt k.path docs') {y y' : Option (Repr' × List (Val Str))} (h : k.Source look docs y)
    (h' : k.Source look' docs' y') : textsOf y = textsOf y' := by
  unfold ListKey.Source at h h'
  rw [readEnv_agree hv] at h
  generalize readEnv look' k.sources = x at h h'
  have key : (∃ xs, ListsIn k.splits k.path docs xs ∧ JoinedList xs y) → (∃ xs, ListsIn k.splits k.path docs' xs ∧ JoinedList xs y') →
      textsOf y = textsOf y' := by
    rintro ⟨xs, h1, h2⟩ ⟨xs', h3, h4⟩
    exact joined_values (listsIn_values hd h1 h3) h2 h4
  match x, h, h' with
  | some (some (n, x)), h, h' => rw [h, h']
  | some none, h, h' => exact key h h'
  | none, h, h' => exact key h h'

/-- C103, lists of strings: likewise. -/
theorem C103_lists (h : Loads p fs toml cwd o look home docs c s) (h' : Loads p' fs' toml' cwd' o' look' home' docs' c' s')
    (k : ListKey) (hv : ∀ n ∈ k.sources.map Prod.fst, look n = look' n) (hd : valuesAt k.path docs = valuesAt k.path docs') :
    k.plain c = k.plain c' := by
  have e3 : (k.plain c).isSome = (k.plain c').isSome := by cases k <;> rfl
  have e1 := fun x => C57_lists h k x
  have e2 := fun x => C57_lists h' k x
  generalize k.plain c = a at *
  generalize k.plain c' = b at *
  cases a with
  | none => cases b with
    | none => rfl
    | some b => cases e3
  | some a => cases b with
    | none => cases e3
    | some b =>
      obtain ⟨x, hx, rfl⟩ := e1 a rfl
      obtain ⟨y, hy, rfl⟩ := e2 b rfl
      exact congrArg some (listSource_values k hv hd hx hy)

/-- C103, the rustdocflags of a target: if the variables are the same and the files state the same values, in the same order, for
`build.rustdocflags` and for those of the target, every target has the same rustdocflags. -/
theorem C103_rustdocflags (h : Loads p fs toml cwd o look home docs c s) (h' : Loads p' fs' toml' cwd' o' look home' docs' c' s')
    {t : TargetTriple} {w w' : World} {e e' : ETarget} {z z' : Cells} (hq : c.target t w s = (.ok e, z))
    (hq' : c'.target t w' s' = (.ok e', z'))
    (hb : valuesAt ["build".toList, "rustdocflags".toList] docs = valuesAt ["build".toList, "rustdocflags".toList] docs')
    (ht : valuesAt ["target".toList, t.triple, "rustdocflags".toList] docs = valuesAt ["target".toList, t.triple, "rustdocflags".toList] docs') :
    e.rustdocflags = e'.rustdocflags := by
  obtain ⟨b1, o1, h1, h2, h3⟩ := C63_rustdocflags h hq
  obtain ⟨b2, o2, h4, h5, h6⟩ := C63_rustdocflags h' hq'
  rw [listSource_values .buildRustdocflags (fun _ _ => rfl) hb h1 h4,
    listSource_values (.targetRustdocflags t.triple) (fun _ _ => rfl) ht h2 h5, ← h6] at h3
  exact optMap_inj (fun x y h => EFlags_ext h) h3

/-- C103, the rustflags of a target: likewise, if moreover the same keys `cfg(..)` apply and the files state the same values, in the same
order, for their rustflags. -/
theorem C103_rustflags (h : Loads p fs toml cwd o look home docs c s) (h' : Loads p' fs' toml' cwd' o' look home' docs' c' s')
    {t : TargetTriple} {w w' : World} {e e' : ETarget} {z z' : Cells} {ks : List Str} (hq : c.target t w s = (.ok e, z))
    (hq' : c'.target t w' s' = (.ok e', z'))
    (hk : CfgTables w.checks docs (z.cfg.get t.cliTarget) ks) (hk' : CfgTables w'.checks docs' (z'.cfg.get t.cliTarget) ks)
    (hb : valuesAt ["build".toList, "rustflags".toList] docs = valuesAt ["build".toList, "rustflags".toList] docs')
    (ht : ∀ k ∈ t.triple :: ks, valuesAt ["target".toList, k, "rustflags".toList] docs = valuesAt ["target".toList, k, "rustflags".toList] docs') :
    e.rustflags = e'.rustflags := by
  obtain ⟨b1, o1, y1, h1, h2, h3, h4⟩ := C63_rustflags h hq hk
  obtain ⟨b2, o2, y2, h5, h6, h7, h8⟩ := C63_rustflags h' hq' hk'
  have hy : y1.map textsOf = y2.map textsOf := by
    have ht' : ∀ k ∈ ks, valuesAt ["target".toList, k, "rustflags".toList] docs = valuesAt ["target".toList, k, "rustflags".toList] docs' :=
      fun k hk => ht k (List.mem_cons_of_mem _ hk)
    clear h4 h8 hk hk' ht
    induction h3 generalizing y2 with
    | nil => cases h7; rfl
    | @cons k _ _ _ g1 _ ih => cases h7 with
      | cons g2 g3 =>
        simp only [List.map_cons]
        rw [listSource_values (.targetRustflags k) (fun _ _ => rfl) (ht' k List.mem_cons_self) g1 g2,
          ih _ g3 fun k hk => ht' k (List.mem_cons_of_mem _ hk)]
  rw [listSource_values .buildRustflags (fun _ _ => rfl) hb h1 h5,
    listSource_values (.targetRustflags t.triple) (fun _ _ => rfl) (ht _ List.mem_cons_self) h2 h6, hy, ← h8] at h4
  exact optMap_inj (fun x y h => EFlags_ext h) h4

/-- C103, the linker of a target: likewise, if the same keys `cfg(..)` apply and all linkers that the variable and the files state for
the target and for these keys are absolute paths or plain names. -/
theorem C103_linker (h : Loads p fs toml cwd o look home docs c s) (h' : Loads p' fs' toml' cwd' o' look home' docs' c' s')
    {t : TargetTriple} {w w' : World} {e e' : ETarget} {z z' : Cells} {ks : List Str} (hq : c.target t w s = (.ok e, z))
    (hq' : c'.target t w' s' = (.ok e', z'))
    (hk : CfgTables w.checks docs (z.cfg.get t.cliTarget) ks) (hk' : CfgTables w'.checks docs' (z'.cfg.get t.cliTarget) ks)
    (ht : ∀ k ∈ t.triple :: ks, valuesAt ["target".toList, k, "linker".toList] docs = valuesAt ["target".toList, k, "linker".toList] docs')
    (he : ∀ text, look (targetEnvName t.triple "LINKER") = some (.unicode text) → PortableProgram text)
    (hp : ∀ k ∈ t.triple :: ks, ∀ text, .str text ∈ valuesAt ["target".toList, k, "linker".toList] docs → PortableProgram text) :
    e.linker = e'.linker := by
  have g1 := C63_linker h hq hk
  have g2 := C63_linker h' hq' hk'
  have hs : ∀ k ∈ t.triple :: ks, ((ScalarKey.targetLinker k).source look docs).map Prod.fst =
      ((ScalarKey.targetLinker k).source look docs').map Prod.fst :=
    fun k hk => source_values (.targetLinker k) (fun _ => rfl) (fun _ _ => rfl) (ht k hk)
  have hm : ∀ k ∈ t.triple :: ks, ∀ text d, (ScalarKey.targetLinker k).source look docs = some (.str text, d) → PortableProgram text := by
    intro k hk text d hx
    refine hp k hk text ?_
    have e2 : ((ScalarKey.targetLinker k).source look docs).map Prod.fst = (valuesAt ["target".toList, k, "linker".toList] docs).head? :=
      firstSome_values (fun t => t.at ["target".toList, k, "linker".toList]) docs
    rw [hx] at e2
    exact List.mem_of_mem_head? e2.symm
  generalize t.triple :: ks = l at *
  have key : ∀ l' : List (Option (Toml × Definition)), ∀ u, firstSome l' = some u → some u ∈ l' := fun l' u hu => firstSome_mem hu
  generalize hu : firstSome (_ :: l.map fun k => (ScalarKey.targetLinker k).source look docs) = u at g1
  generalize hv : firstSome (_ :: l.map fun k => (ScalarKey.targetLinker k).source look docs') = v at g2
  have huv : u.map Prod.fst = v.map Prod.fst := by
    rw [← hu, ← hv, firstSome_map, firstSome_map]
    simp only [List.map_cons, List.map_map, Function.comp_def]
    rw [List.map_congr_left hs]
  have hpo : ∀ text d, u = some (.str text, d) → PortableProgram text := by
    intro text d hx
    subst hx
    rcases List.mem_cons.1 (key _ _ hu) with hx | hx
    · obtain ⟨x, h1, h2⟩ := Option.map_eq_some_iff.1 hx.symm
      cases h2
      refine he text ?_
      unfold textOf at h1
      split at h1
      · cases h1; assumption
      · cases h1
    · obtain ⟨k, h1, h2⟩ := List.mem_map.1 hx
      exact hm k h1 text d h2
  generalize e.linker = a at *
  generalize e'.linker = b at *
  cases g1 with
  | none => cases g2 with
    | none => rfl
    | some g2 => cases huv
  | @some u a g1 => cases g2 with
    | none => cases huv
    | @some v b g2 =>
      obtain ⟨u, d⟩ := u
      obtain ⟨v, d'⟩ := v
      obtain ⟨x, e, g1⟩ := g1
      obtain ⟨x', e', g2⟩ := g2
      dsimp only at e e'
      subst e
      subst e'
      cases huv
      have hp := hpo x d rfl
      rw [programPath_portable (v := ⟨x, _⟩) hp g1, programPath_portable (v := ⟨x, _⟩) hp g2]

/-! ### a sample: two files with different settings, and the same with their contents exchanged -/

def sampleFirstDoc : Toml := .tbl [("build".toList, .tbl [("incremental".toList, .bool true), ("rustflags".toList, .arr [.str "-O".toList])]),
  ("target".toList, .tbl [("x".toList, .tbl [("linker".toList, .str "/bin/ld".toList)])])]

def sampleSecondDoc : Toml := .tbl [("build".toList, .tbl [("rustdoc".toList, .str "/bin/rustdoc".toList),
  ("rustdocflags".toList, .arr [.str "-D".toList])])]

def sampleTwoToml (near far : Toml) (s : Str) : Res Toml :=
  if s = "near".toList then .ok near else if s = "far".toList then .ok far else .err (.toml [])

theorem sampleFirst_distinct : sampleFirstDoc.DistinctKeys := by
  refine distinct_tbl (by decide) fun x hx => ?_
  simp only [List.mem_cons, List.not_mem_nil, or_false] at hx
  rcases hx with rfl | rfl
  · refine distinct_tbl (by decide) fun x hx => distinct_leaf ?_
    simp only [List.mem_cons, List.not_mem_nil, or_false] at hx
    rcases hx with rfl | rfl <;> rfl
  · refine distinct_tbl (by decide) fun x hx => ?_
    simp only [List.mem_cons, List.not_mem_nil, or_false] at hx
    subst hx
    refine distinct_tbl (by decide) fun x hx => distinct_leaf ?_
    simp only [List.mem_cons, List.not_mem_nil, or_false] at hx
    subst hx
    rfl

theorem sampleSecond_distinct : sampleSecondDoc.DistinctKeys := by
  refine distinct_tbl (by decide) fun x hx => ?_
  simp only [List.mem_cons, List.not_mem_nil, or_false] at hx
  subst hx
  refine distinct_tbl (by decide) fun x hx => distinct_leaf ?_
  simp only [List.mem_cons, List.not_mem_nil, or_false] at hx
  rcases hx with rfl | rfl <;> rfl

theorem sampleFirst_table {k : Str} (h : sampleFirstDoc.at ["target".toList, k] ≠ none) : k = "x".toList := by
  by_cases hk : k = "x".toList
  · exact hk
  · exact absurd (by simp [sampleFirstDoc, Toml.at, BMap.get]; exact fun h => hk h.symm) h

theorem sampleTwo_distinct {near far : Toml} (hn : near.DistinctKeys) (hf : far.DistinctKeys) (s : Str) (t : Toml)
    (h : sampleTwoToml near far s = .ok t) : t.DistinctKeys := by
  unfold sampleTwoToml at h
  split at h
  · cases h; exact hn
  · split at h
    · cases h; exact hf
    · cases h

theorem sampleTwo_query {near far : Toml} (hn : near.DistinctKeys) (hf : far.DistinctKeys) {t : TargetTriple}
    (h : (match EConfig.loadWithOptions sampleProc sampleFs (fun s => sampleTwoToml near far s >>= Config.de) "/w/p".toList { cargoHome := some none } with
      | .ok (c, s) => (c.target t statingWorld s).1.isOk
      | _ => false) = true) :
    ∃ look c s e z, Loads sampleProc sampleFs (sampleTwoToml near far) "/w/p".toList { cargoHome := some none } look none
      [("/w/p/.cargo/config".toList, near), ("/w/.cargo/config.toml".toList, far)] c s ∧ c.target t statingWorld s = (.ok e, z) := by
  have hl : (EConfig.loadWithOptions sampleProc sampleFs (fun s => sampleTwoToml near far s >>= Config.de) "/w/p".toList
      { cargoHome := some none }).isOk = true := by
    generalize EConfig.loadWithOptions _ _ _ _ _ = x at h
    match x, h with
    | .ok _, _ => rfl
  obtain ⟨look, c, s, hl⟩ := sample_load (sampleTwo_distinct hn hf) (if_pos rfl) ((if_neg (by decide)).trans (if_pos rfl)) hl
  rw [hl.loaded] at h
  dsimp only at h
  generalize hq : c.target t statingWorld s = x at h
  obtain ⟨r, z⟩ := x
  match r, h with
  | .ok e, _ => exact ⟨look, c, s, e, z, hl, hq⟩

/-- Which of the two files states a setting makes no difference. -/
example : ∃ look c s e z c' s' e' z',
    Loads sampleProc sampleFs (sampleTwoToml sampleFirstDoc sampleSecondDoc) "/w/p".toList { cargoHome := some none } look none
      [("/w/p/.cargo/config".toList, sampleFirstDoc), ("/w/.cargo/config.toml".toList, sampleSecondDoc)] c s ∧
    Loads sampleProc sampleFs (sampleTwoToml sampleSecondDoc sampleFirstDoc) "/w/p".toList { cargoHome := some none } look none
      [("/w/p/.cargo/config".toList, sampleSecondDoc), ("/w/.cargo/config.toml".toList, sampleFirstDoc)] c' s' ∧
    c.target ⟨"x".toList, none⟩ statingWorld s = (.ok e, z) ∧ c'.target ⟨"x".toList, none⟩ statingWorld s' = (.ok e', z') ∧
    (∀ k : ScalarKey, k.place = ["build".toList, "incremental".toList] → k.plain c = k.plain c') ∧
    ScalarKey.buildRustdoc.program c = ScalarKey.buildRustdoc.program c' ∧
    ListKey.buildRustflags.plain c = ListKey.buildRustflags.plain c' ∧
    e.rustdocflags = e'.rustdocflags ∧ e.rustflags = e'.rustflags ∧ e.linker = e'.linker := by
  obtain ⟨look, c, s, e, z, h, hq⟩ := sampleTwo_query (near := sampleFirstDoc) (far := sampleSecondDoc) (t := ⟨"x".toList, none⟩)
    sampleFirst_distinct sampleSecond_distinct (by decide +kernel)
  obtain ⟨look', c', s', e', z', h', hq'⟩ := sampleTwo_query (near := sampleSecondDoc) (far := sampleFirstDoc) (t := ⟨"x".toList, none⟩)
    sampleSecond_distinct sampleFirst_distinct (by decide +kernel)
  have hl : look = look' := (env_unique h.env (cwd := []) rfl).symm.trans (env_unique h'.env (cwd := []) rfl)
  subst hl
  have hl := env_unique h.env (cwd := []) rfl
  subst hl
  have ht : ∀ (f g : Path) (k : Str), isCfgKey k = true → ¬ HasTable [(f, sampleFirstDoc), (g, sampleSecondDoc)] k ∧
      ¬ HasTable [(f, sampleSecondDoc), (g, sampleFirstDoc)] k := by
    intro f g k hk
    constructor
    all_goals
      rintro ⟨f, t, hm, hx⟩
      simp only [List.mem_cons, Prod.mk.injEq, List.not_mem_nil, or_false] at hm
      rcases hm with ⟨rfl, rfl⟩ | ⟨rfl, rfl⟩ <;> first | exact absurd rfl hx | (rw [sampleFirst_table hx] at hk; revert hk; decide +kernel)
  have k1 : CfgTables statingWorld.checks [("/w/p/.cargo/config".toList, sampleFirstDoc), ("/w/.cargo/config.toml".toList, sampleSecondDoc)]
      (z.cfg.get "x".toList) [] :=
    ⟨.nil, fun k => ⟨fun hk => (by cases hk), fun hk => absurd hk.2.1 (ht _ _ _ hk.1).1⟩, fun k hc hk => absurd hk (ht _ _ _ hc).1⟩
  have k2 : CfgTables statingWorld.checks [("/w/p/.cargo/config".toList, sampleSecondDoc), ("/w/.cargo/config.toml".toList, sampleFirstDoc)]
      (z'.cfg.get "x".toList) [] :=
    ⟨.nil, fun k => ⟨fun hk => (by cases hk), fun hk => absurd hk.2.1 (ht _ _ _ hk.1).2⟩, fun k hc hk => absurd hk (ht _ _ _ hc).2⟩
  refine ⟨_, c, s, e, z, c', s', e', z', h, h', hq, hq', fun k hk => C103_plain h h' k (fun _ _ => rfl) (by rw [hk]; rfl),
    C103_programs h h' .buildRustdoc (fun _ _ => rfl) rfl ?_, C103_lists h h' .buildRustflags (fun _ _ => rfl) rfl,
    C103_rustdocflags h h' hq hq' rfl rfl, C103_rustflags h h' hq hq' k1 k2 rfl ?_, C103_linker h h' hq hq' k1 k2 ?_ ?_ ?_⟩
  · intro text d hd
    cases hd
    exact .inl ⟨_, rfl⟩
  · intro k hk
    simp only [List.mem_singleton] at hk
    subst hk
    rfl
  · intro k hk
    simp only [List.mem_singleton] at hk
    subst hk
    rfl
  · intro text hx
    cases hx
  · intro k hk text hx
    simp only [List.mem_singleton] at hk
    subst hk
    have e : valuesAt ["target".toList, "x".toList, "linker".toList]
      [("/w/p/.cargo/config".toList, sampleFirstDoc), ("/w/.cargo/config.toml".toList, sampleSecondDoc)] = [.str "/bin/ld".toList] := rfl
    rw [e, List.mem_singleton] at hx
    cases hx
    exact .inl ⟨_, rfl⟩

end CC
