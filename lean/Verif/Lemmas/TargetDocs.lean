import Verif.Spec.TargetDocs
import Verif.Props.EndToEnd
import Verif.Props.TargetQuery
import Verif.Props.Queries
/-
Lemmas for C63: the tables of `c.deTarget` in terms of the documents.
-/
namespace CC

theorem precedes_iff {a b : Str} : strLt a b = true ↔ Precedes a b := by
  induction a generalizing b with
  | nil =>
    cases b with
    | nil =>
      simp only [strLt, Bool.false_eq_true, false_iff]
      rintro (⟨c, r, h⟩ | ⟨p, x, y, r, r', h, _⟩)
      · cases h
      · cases p <;> cases h
    | cons c b => simp only [strLt, true_iff]; exact .inl ⟨c, b, rfl⟩
  | cons x a ih =>
    cases b with
    | nil =>
      simp only [strLt, Bool.false_eq_true, false_iff]
      rintro (⟨c, r, h⟩ | ⟨p, x, y, r, r', _, h, _⟩)
      · cases h
      · cases p <;> cases h
    | cons y b =>
      simp only [strLt]
      split
      · rename_i h
        simp only [true_iff]
        exact .inr ⟨[], x, y, a, b, rfl, rfl, h⟩
      · rename_i hn
        split
        · rename_i h
          subst h
          rw [ih]
          constructor
          · rintro (⟨c, r, h⟩ | ⟨p, u, v, r, r', h1, h2, h3⟩)
            · exact .inl ⟨c, r, by rw [h]; rfl⟩
            · exact .inr ⟨x :: p, u, v, r, r', by rw [h1]; rfl, by rw [h2]; rfl, h3⟩
          · rintro (⟨c, r, h⟩ | ⟨p, u, v, r, r', h1, h2, h3⟩)
            · exact .inl ⟨c, r, (List.cons.inj h).2⟩
            · cases p with
              | nil =>
                cases h1
                cases h2
                exact absurd h3 hn
              | cons z p =>
                exact .inr ⟨p, u, v, r, r', (List.cons.inj h1).2, (List.cons.inj h2).2, h3⟩
        · rename_i hne
          simp only [Bool.false_eq_true, false_iff]
          rintro (⟨c, r, h⟩ | ⟨p, u, v, r, r', h1, h2, h3⟩)
          · exact hne (List.cons.inj h).1.symm
          · cases p with
            | nil =>
              cases h1
              cases h2
              exact hn h3
            | cons z p => exact hne ((List.cons.inj h1).1.trans (List.cons.inj h2).1.symm)

/-- Ordered lists with the same members are equal. -/
theorem ordered_ext {a b : List Str} (ha : a.Pairwise Precedes) (hb : b.Pairwise Precedes) (h : ∀ k, k ∈ a ↔ k ∈ b) : a = b := by
  have conv : ∀ {l : List Str}, l.Pairwise Precedes → BMap.Sorted (l.map fun k => (k, ())) := by
    intro l hl
    rw [BMap.Sorted, List.pairwise_map]
    exact hl.imp fun h => precedes_iff.2 h
  have key := BMap.ext (conv ha) (conv hb) fun k => by
    have e1 := fun v => BMap.mem_iff_get (conv ha) (k := k) (v := v)
    have e2 := fun v => BMap.mem_iff_get (conv hb) (k := k) (v := v)
    have e3 : ∀ v : Unit, BMap.get (a.map fun k => (k, ())) k = some v ↔ BMap.get (b.map fun k => (k, ())) k = some v := by
      intro v
      rw [← e1, ← e2]
      simp [h k]
    generalize BMap.get (a.map fun k => (k, ())) k = x at e3
    generalize BMap.get (b.map fun k => (k, ())) k = y at e3
    cases x with
    | none =>
      cases y with
      | none => rfl
      | some y => exact absurd ((e3 y).2 rfl) (by simp)
    | some x => exact ((e3 x).1 rfl).symm
  have := congrArg (List.map Prod.fst) key
  simpa [Function.comp_def] using this

/-- The keys of the matching tables. -/
def matchingKeys (targets : BMap TargetConfig) (holds : Str → Bool) : List Str :=
  (targets.filter fun e => isCfgKey e.1 && holds e.1).map Prod.fst

theorem matching_map {α : Type} {targets : BMap TargetConfig} (hs : targets.Sorted) (holds : Str → Bool) (f : TargetConfig → Option α) :
    (matching targets holds).map f = (matchingKeys targets holds).map fun k => (BMap.get targets k).bind f := by
  unfold matching matchingKeys
  rw [List.map_map, List.map_map]
  apply List.map_congr_left
  rintro ⟨k, v⟩ hm
  have := BMap.get_of_mem hs (List.mem_filter.1 hm).1
  simp only [Function.comp_apply, this, Option.bind_some]

theorem keyValue_unique {checks : Bool} {cs : CfgSet} {k : Str} {a b : Bool} (ha : KeyValue checks cs k a) (hb : KeyValue checks cs k b) :
    a = b := by
  obtain ⟨e, h1, h2⟩ := ha
  obtain ⟨e', h3, h4⟩ := hb
  rw [h1] at h3
  cases Res.ok.inj h3
  rw [h2] at h4
  exact Option.some.inj h4

variable {p : ProcEnv} {fs : Fs} {toml : Str → Res Toml} {cwd : Path} {o : Options} {c : EConfig} {s s' : Cells}
  {look : Str → Option OsStr} {home : Option Path} {docs : List (Path × Toml)} {w : World} {t : TargetTriple}

theorem loads_sorted (h : Loads p fs toml cwd o look home docs c s) : c.deTarget.Sorted := by
  obtain ⟨de, cx, raws, h1, h2, h3, h4, h5, h6, h7⟩ := loaded_unpack h.tables h.map h.loaded h.env h.home h.docs
  rw [(loaded_build h2 h4).2.1]
  exact (load_wf (fun s c => toml_wf s c) h5).target

theorem loads_table (h : Loads p fs toml cwd o look home docs c s) (k : Str) :
    (∃ v, (k, v) ∈ c.deTarget) ↔ HasTable docs k := by
  have hs := loads_sorted h
  have h4 := (C57_entries h k).2.2.2
  unfold HasTable
  rw [← h4, Option.isSome_iff_exists]
  exact exists_congr fun v => BMap.mem_iff_get hs

/-- The keys of the matching tables are those described by the specification. -/
theorem cfgTables_matching (h : Loads p fs toml cwd o look home docs c s) {checks : Bool} {cs : Option CfgSet} {holds : Str → Bool}
    (he : Evaluated checks c.deTarget cs holds) : CfgTables checks docs cs (matchingKeys c.deTarget holds) := by
  have hs := loads_sorted h
  constructor
  · unfold matchingKeys
    rw [List.pairwise_map]
    exact (List.Pairwise.sublist List.filter_sublist hs).imp fun h => precedes_iff.1 h
  · intro k
    rw [← loads_table h k]
    unfold matchingKeys
    simp only [List.mem_map, List.mem_filter, Bool.and_eq_true]
    constructor
    · rintro ⟨⟨k', v⟩, ⟨hm, h1, h2⟩, rfl⟩
      obtain ⟨c', e1, e2⟩ := he _ _ hm h1
      dsimp only at h2 e2
      rw [h2] at e2
      exact ⟨h1, ⟨v, hm⟩, c', e1, e2⟩
    · rintro ⟨h1, ⟨v, hm⟩, c', e1, e2⟩
      obtain ⟨c'', e3, e4⟩ := he _ _ hm h1
      rw [e1] at e3
      cases e3
      exact ⟨(k, v), ⟨hm, h1, keyValue_unique e4 e2⟩, rfl⟩
  · intro k h1 h2
    obtain ⟨v, hm⟩ := (loads_table h k).2 h2
    obtain ⟨c', e1, e2⟩ := he _ _ hm h1
    exact ⟨c', _, e1, e2⟩

theorem cfgTables_unique {checks : Bool} {cs : Option CfgSet} {a b : List Str} (ha : CfgTables checks docs cs a)
    (hb : CfgTables checks docs cs b) : a = b :=
  ordered_ext ha.ordered hb.ordered fun k => (ha.listed k).trans (hb.listed k).symm

theorem loads_cx (h : Loads p fs toml cwd o look home docs c s) : c.cx.currentDir = cwd ∧ Env.get c.cx.env = look := by
  obtain ⟨de, cx, raws, h1, h2, h3, h4, h5, h6, h7⟩ := loaded_unpack h.tables h.map h.loaded h.env h.home h.docs
  rw [(loaded_build h2 h4).1]
  exact ⟨h1, h3⟩

theorem envText_eq {env : Env} (h : Env.get env = look) (n : Str) : envText env n = textOf look n := by
  unfold envText textOf
  rw [h]
  generalize look n = x
  rcases x with _ | ⟨_⟩ <;> rfl

theorem listRel_map_of {α β : Type} {R : α → β → Prop} {f : α → β} (h : ∀ a, R a (f a)) : ∀ l : List α, ListRel R l (l.map f)
  | [] => .nil
  | a :: l => .cons (h a) (listRel_map_of h l)

theorem loads_rustflags {de : Config} {cx : Ctx} (hl : EConfig.fromUnresolved de cx = .ok c) :
    c.build.rustflags.map (·.flags) = c.build.deRustflags.map Flags.texts := by
  simp only [EConfig.fromUnresolved, EBuild.fromUnresolved, EDoc.fromUnresolved, Res.bind_eq_ok, Res.pure_eq] at hl
  obtain ⟨de', h0, b, ⟨x1, h1, x2, h2, x3, h3, x4, h4, x5, h5, x6, h6, x7, h7, e1⟩, d, ⟨x8, h8, e2⟩, en, h9, e3⟩ := hl
  cases e1
  cases e2
  cases e3
  cases de'.build.rustflags <;> rfl

theorem loads_rustdocflags {de : Config} {cx : Ctx} (hl : EConfig.fromUnresolved de cx = .ok c) :
    c.build.rustdocflags.map (·.flags) = c.build.deRustdocflags.map Flags.texts := by
  simp only [EConfig.fromUnresolved, EBuild.fromUnresolved, EDoc.fromUnresolved, Res.bind_eq_ok, Res.pure_eq] at hl
  obtain ⟨de', h0, b, ⟨x1, h1, x2, h2, x3, h3, x4, h4, x5, h5, x6, h6, x7, h7, e1⟩, d, ⟨x8, h8, e2⟩, en, h9, e3⟩ := hl
  cases e1
  cases e2
  cases e3
  cases de'.build.rustdocflags <;> rfl

end CC
