import Verif.Spec.Get
import Verif.Lemmas.SerdeOnly
import Verif.Lemmas.Outcome
/-
Lemmas for C84.
-/
namespace CC

mutual
/-- The values of a document that are not tables, with their places. -/
def leaves (pre : List Str) : Toml → List (List Str × Toml)
  | .tbl l => leavesT pre l
  | v => [(pre, v)]
def leavesT (pre : List Str) : List (Str × Toml) → List (List Str × Toml)
  | [] => []
  | x :: l => leaves (pre ++ [x.1]) x.2 ++ leavesT pre l
end

theorem joinWith_snoc (c : Char) : ∀ {pre : List Str}, pre ≠ [] → ∀ k, joinWith c (pre ++ [k]) = joinWith c pre ++ c :: k
  | [], h, _ => absurd rfl h
  | [_], _, _ => rfl
  | p :: q :: ps, _, k => by
    have := joinWith_snoc c (pre := q :: ps) (by simp) k
    simp only [List.cons_append, joinWith] at this ⊢
    rw [this, List.append_assoc]
    rfl

mutual
theorem printValue_leaves : ∀ (t : Toml) {pre : List Str}, pre ≠ [] → printValue (joinWith '.' pre) t = (leaves pre t).map .ofEntry
  | .tbl l, pre, h => by simp only [printValue, leaves]; exact printEntries_leaves l h
  | .str _, _, _ => by simp only [printValue, leaves]; rfl
  | .int _, _, _ => by simp only [printValue, leaves]; rfl
  | .bool _, _, _ => by simp only [printValue, leaves]; rfl
  | .other, _, _ => by simp only [printValue, leaves]; rfl
  | .arr _, _, _ => by simp only [printValue, leaves]; rfl
theorem printEntries_leaves : ∀ (l : List (Str × Toml)) {pre : List Str}, pre ≠ [] →
    printEntries (joinWith '.' pre) l = (leavesT pre l).map .ofEntry
  | [], _, _ => by simp only [printEntries, leavesT]; rfl
  | (k, t) :: l, pre, h => by
    simp only [printEntries, leavesT, List.map_append]
    rw [← joinWith_snoc '.' h, printValue_leaves t (by simp), printEntries_leaves l h]
end

theorem printTop_leaves (l : List (Str × Toml)) : printTop l = (leavesT [] l).map .ofEntry := by
  induction l with
  | nil => simp only [printTop, leavesT]; rfl
  | cons x l ih =>
    simp only [printTop, leavesT, List.map_append, List.nil_append, ih]
    have := printValue_leaves x.2 (pre := [x.1]) (by simp)
    rw [← this]
    rfl

/-- All tables of the document are sorted. -/
def Toml.TablesSorted (t : Toml) : Prop := ∀ p l, t.at p = some (.tbl l) → BMap.Sorted l

theorem TablesSorted.entry {l : List (Str × Toml)} (h : (Toml.tbl l).TablesSorted) {k : Str} {t : Toml} (hg : BMap.get l k = some t) :
    t.TablesSorted := by
  intro p l' h'
  refine h (k :: p) l' ?_
  rw [Toml.at, hg]
  exact h'

theorem get_sortEntries (k : Str) : ∀ l : List (Str × Toml), BMap.get (sortEntries l) k = (BMap.get l k).map Toml.sortKeys
  | [] => by simp only [sortEntries]; rfl
  | (k', t) :: l => by
    simp only [sortEntries]
    rw [BMap.get_insert, get_sortEntries k l]
    simp only [BMap.get]
    by_cases e : k' = k
    · subst e; simp
    · rw [if_neg e, if_neg (fun h => e h)]

theorem sorted_sortEntries : ∀ l : List (Str × Toml), BMap.Sorted (sortEntries l)
  | [] => by simp only [sortEntries]; exact BMap.sorted_nil
  | (k', t) :: l => by
    simp only [sortEntries]
    exact BMap.Sorted.insert (sorted_sortEntries l) _ _

theorem at_sortKeys : ∀ (p : List Str) (t : Toml), t.sortKeys.at p = (t.at p).map Toml.sortKeys
  | [], t => by simp [Toml.at]
  | k :: p, t => by
    cases t with
    | tbl l =>
      simp only [Toml.sortKeys, Toml.at]
      rw [get_sortEntries]
      cases BMap.get l k with
      | none => rfl
      | some t => exact at_sortKeys p t
    | _ => simp only [Toml.sortKeys]; rfl

theorem tablesSorted_sortKeys (t : Toml) : t.sortKeys.TablesSorted := by
  intro p l h
  rw [at_sortKeys] at h
  obtain ⟨t', _, h⟩ := Option.map_eq_some_iff.1 h
  cases t' with
  | tbl l' =>
    simp only [Toml.sortKeys] at h
    cases h
    exact sorted_sortEntries _
  | _ => simp only [Toml.sortKeys] at h; cases h

theorem sortKeys_leaf {t : Toml} {v : Toml} (hv : v.NotTable) : t.sortKeys = v ↔ t = v := by
  cases t with
  | tbl l =>
    simp only [Toml.sortKeys]
    constructor
    · intro h; exact absurd h.symm (hv _)
    · intro h; exact absurd h.symm (hv _)
  | _ => simp only [Toml.sortKeys]

theorem at_sortKeys_leaf {t v : Toml} {p : List Str} (hv : v.NotTable) : t.sortKeys.at p = some v ↔ t.at p = some v := by
  rw [at_sortKeys, Option.map_eq_some_iff]
  constructor
  · rintro ⟨a, h, e⟩
    rw [(sortKeys_leaf hv).1 e] at h
    exact h
  · intro h
    exact ⟨v, h, (sortKeys_leaf hv).2 rfl⟩

theorem leaves_leaf {t : Toml} (h : t.NotTable) (pre : List Str) : leaves pre t = [(pre, t)] := by
  cases t with
  | tbl l => exact absurd rfl (h l)
  | _ => simp only [leaves]

theorem tbl_or_not (t : Toml) : (∃ l, t = .tbl l) ∨ t.NotTable := by
  cases t with
  | tbl l => exact .inl ⟨l, rfl⟩
  | _ => exact .inr fun l h => by cases h

mutual
theorem mem_leaves : ∀ (t : Toml), t.TablesSorted → ∀ {pre p : List Str} {v : Toml},
    (p, v) ∈ leaves pre t ↔ ∃ q, p = pre ++ q ∧ t.at q = some v ∧ v.NotTable
  | .tbl l, h, pre, p, v => by
    simp only [leaves]
    rw [mem_leavesT l (h [] l rfl) (fun k t hm => TablesSorted.entry h (BMap.get_of_mem (h [] l rfl) hm))]
    constructor
    · rintro ⟨k, t, q, hm, e, ha, hv⟩
      refine ⟨k :: q, e, ?_, hv⟩
      rw [Toml.at, BMap.get_of_mem (h [] l rfl) hm]
      exact ha
    · rintro ⟨q, e, ha, hv⟩
      cases q with
      | nil => cases ha; exact absurd rfl (hv l)
      | cons k q =>
        obtain ⟨t, ht, ha⟩ := Option.bind_eq_some_iff.1 ha
        exact ⟨k, t, q, BMap.mem_of_get ht, e, ha, hv⟩
  | .str s, _, pre, p, v => mem_leaf (t := .str s) (fun _ h => by cases h)
  | .int s, _, pre, p, v => mem_leaf (t := .int s) (fun _ h => by cases h)
  | .bool s, _, pre, p, v => mem_leaf (t := .bool s) (fun _ h => by cases h)
  | .other, _, pre, p, v => mem_leaf (t := .other) (fun _ h => by cases h)
  | .arr s, _, pre, p, v => mem_leaf (t := .arr s) (fun _ h => by cases h)
theorem mem_leavesT : ∀ (l : List (Str × Toml)), BMap.Sorted l → (∀ k t, (k, t) ∈ l → t.TablesSorted) →
    ∀ {pre p : List Str} {v : Toml},
    (p, v) ∈ leavesT pre l ↔ ∃ k t q, (k, t) ∈ l ∧ p = pre ++ k :: q ∧ t.at q = some v ∧ v.NotTable
  | [], _, _, pre, p, v => by simp [leavesT]
  | (k, t) :: l, hs, hl, pre, p, v => by
    simp only [leavesT, List.mem_append]
    rw [mem_leaves t (hl k t (by simp)), mem_leavesT l hs.tail (fun k t h => hl k t (by simp [h]))]
    constructor
    · rintro (⟨q, e, h⟩ | ⟨k', t', q, hm, h⟩)
      · exact ⟨k, t, q, by simp, by rw [e, List.append_assoc]; rfl, h⟩
      · exact ⟨k', t', q, by simp [hm], h⟩
    · rintro ⟨k', t', q, hm, e, h⟩
      rcases List.mem_cons.1 hm with h' | hm
      · cases h'
        exact .inl ⟨q, by rw [e, List.append_assoc]; rfl, h⟩
      · exact .inr ⟨k', t', q, hm, e, h⟩
theorem mem_leaf {t : Toml} (ht : t.NotTable) {pre p : List Str} {v : Toml} :
    (p, v) ∈ leaves pre t ↔ ∃ q, p = pre ++ q ∧ t.at q = some v ∧ v.NotTable := by
  rw [leaves_leaf ht]
  simp only [List.mem_singleton, Prod.mk.injEq]
  constructor
  · rintro ⟨rfl, rfl⟩; exact ⟨[], by simp, rfl, ht⟩
  · rintro ⟨q, e, ha, _⟩
    obtain ⟨rfl, rfl⟩ := at_notTable ht ha
    exact ⟨by simpa using e, rfl⟩
end

theorem PlaceBefore.prepend {a b : List Str} (h : PlaceBefore a b) : ∀ pre : List Str, PlaceBefore (pre ++ a) (pre ++ b)
  | [] => h
  | _ :: pre => .later (h.prepend pre)

mutual
theorem leaves_ordered : ∀ (t : Toml), t.TablesSorted → ∀ pre, (leaves pre t).Pairwise fun a b => PlaceBefore a.1 b.1
  | .tbl l, h, pre => by
    simp only [leaves]
    exact leavesT_ordered l (h [] l rfl) (fun k t hm => TablesSorted.entry h (BMap.get_of_mem (h [] l rfl) hm)) pre
  | .str _, _, _ => by simp only [leaves]; exact List.pairwise_singleton _ _
  | .int _, _, _ => by simp only [leaves]; exact List.pairwise_singleton _ _
  | .bool _, _, _ => by simp only [leaves]; exact List.pairwise_singleton _ _
  | .other, _, _ => by simp only [leaves]; exact List.pairwise_singleton _ _
  | .arr _, _, _ => by simp only [leaves]; exact List.pairwise_singleton _ _
theorem leavesT_ordered : ∀ (l : List (Str × Toml)), BMap.Sorted l → (∀ k t, (k, t) ∈ l → t.TablesSorted) →
    ∀ pre, (leavesT pre l).Pairwise fun a b => PlaceBefore a.1 b.1
  | [], _, _, _ => by simp only [leavesT]; exact .nil
  | (k, t) :: l, hs, hl, pre => by
    simp only [leavesT]
    refine List.pairwise_append.2 ⟨leaves_ordered t (hl k t (by simp)) _,
      leavesT_ordered l hs.tail (fun k t h => hl k t (by simp [h])) pre, ?_⟩
    rintro ⟨p, v⟩ h1 ⟨p', v'⟩ h2
    obtain ⟨q, rfl, _⟩ := (mem_leaves t (hl k t (by simp))).1 h1
    obtain ⟨k', t', q', hm, rfl, _⟩ := (mem_leavesT l hs.tail (fun k t h => hl k t (by simp [h]))).1 h2
    rw [List.append_assoc]
    exact PlaceBefore.prepend (.here (hs.head _ hm)) pre
end

theorem at_leaf_none {t v : Toml} (hv : v.NotTable) {p q : List Str} (h : t.at p = some v) (hq : q ≠ []) : t.at (p ++ q) = none := by
  induction p generalizing t with
  | nil =>
    cases h
    cases q with
    | nil => exact absurd rfl hq
    | cons s q =>
      cases v with
      | tbl l => exact absurd rfl (hv l)
      | _ => rfl
  | cons s p ih =>
    cases t with
    | tbl l =>
      obtain ⟨t, ht, h⟩ := Option.bind_eq_some_iff.1 h
      rw [List.cons_append, Toml.at, ht]
      exact ih h
    | _ => cases h

/-- What `print_config` prints, in terms of the written document. -/
theorem printConfig_entries (c : Config) : ∃ es : List (List Str × Toml), printConfig .toml c = es.map .ofEntry ∧
    es.Pairwise (fun a b => PlaceBefore a.1 b.1) ∧ ∀ p v, (p, v) ∈ es ↔ c.ser.at p = some v ∧ ∀ l, v ≠ .tbl l := by
  obtain ⟨l, hl, _⟩ := Config.ser_get c
  have hs := tablesSorted_sortKeys c.ser
  refine ⟨leaves [] c.ser.sortKeys, ?_, leaves_ordered _ hs _, fun p v => ?_⟩
  · unfold printConfig
    rw [hl]
    simp only [Toml.sortKeys, leaves]
    exact printTop_leaves _
  · rw [mem_leaves _ hs]
    simp only [List.nil_append]
    constructor
    · rintro ⟨q, rfl, h, hv⟩; exact ⟨(at_sortKeys_leaf hv).1 h, hv⟩
    · rintro ⟨h, hv⟩; exact ⟨p, rfl, (at_sortKeys_leaf hv).2 h, hv⟩

theorem at_prefix_none {t : Toml} {p q : List Str} (h : t.at p = none) : t.at (p ++ q) = none := by
  induction p generalizing t with
  | nil => cases h
  | cons s p ih =>
    cases t with
    | tbl l =>
      rw [Toml.at] at h
      rw [List.cons_append, Toml.at]
      cases hg : BMap.get l s with
      | none => rfl
      | some t => rw [hg] at h; exact ih h
    | _ => rfl

theorem Atom.toml_notTable (a : Atom) : a.toml.NotTable := by
  intro l h; unfold Atom.toml at h; split at h <;> cases h

/-- A single-valued setting is found at one of its places if it is set. -/
theorem scalar_somewhere (c : Config) (k : ScalarKey) (v : Toml) :
    (∃ isTable, c.ser.at (k.path isTable) = some v ∧ ∀ l, v ≠ .tbl l) ↔ (k.get c).map (fun x => x.val.toml) = some v := by
  have h1 := scalar_write c k
  unfold IsAt at h1
  constructor
  · rintro ⟨tb, h, hv⟩
    rw [← h1]
    by_cases hk : ∃ n, k = .envValue n
    · obtain ⟨n, rfl⟩ := hk
      simp only [ScalarKey.path] at h h1 ⊢
      by_cases h2 : tb n = some true <;> by_cases h3 : envShape c n = some true
      · rw [if_pos h2] at h; rw [if_pos h3]; exact h
      · rw [if_pos h2] at h
        rw [if_neg h3] at h1
        have e : c.ser.at (["env".toList, n] ++ ["value".toList]) = none := by
          cases hg : ScalarKey.get c (.envValue n) with
          | none => rw [hg] at h1; exact at_prefix_none h1
          | some a => rw [hg] at h1; exact at_leaf_none (Atom.toml_notTable _) h1 (by simp)
        exact absurd (h.symm.trans e) (by simp)
      · rw [if_neg h2] at h
        rw [if_pos h3] at h1
        have e : c.ser.at (["env".toList, n] ++ ["value".toList]) = none := at_leaf_none hv h (by simp)
        have e := h1.symm.trans e
        simp only [envShape] at h3
        simp only [ScalarKey.get] at e
        cases hg : BMap.get c.env n with
        | none => rw [hg] at h3; cases h3
        | some a => rw [hg] at e; cases e
      · rw [if_neg h2] at h; rw [if_neg h3]; exact h
    · have e : k.path tb = k.path (envShape c) := by
        cases k with
        | envValue n => exact absurd ⟨n, rfl⟩ hk
        | _ => rfl
      rw [← e]; exact h
  · intro h
    refine ⟨envShape c, h1.trans h, ?_⟩
    obtain ⟨a, _, rfl⟩ := Option.map_eq_some_iff.1 h
    exact Atom.toml_notTable _

theorem listsIn_string {split : Bool} {path : List Str} {docs : List (Path × Toml)} {xs : List (Repr' × List (Val Str))}
    (h : ListsIn split path docs xs) : ∀ x ∈ xs, x.1 = .string → (∀ v ∈ x.2, v.val ≠ []) ∨ ∃ v, x.2 = [v] := by
  induction h with
  | nil => intro x hx; cases hx
  | unset _ _ ih => exact ih
  | set _ hl _ ih =>
    intro x hx
    rcases List.mem_cons.1 hx with rfl | hx
    · intro hr
      cases hl with
      | array ws => cases hr
      | words s _ =>
        refine .inl fun v hv => ?_
        obtain ⟨w, hw, rfl⟩ := List.mem_map.1 hv
        simpa using (List.mem_filter.1 hw).2
      | whole s _ => exact .inr ⟨_, rfl⟩
    · exact ih x hx

theorem joinedList_string {α : Type} {xs : List (Repr' × List α)} {x : Repr' × List α} (h : JoinedList xs (some x)) (hx : x.1 = .string) :
    x ∈ xs := by
  cases h with
  | array _ _ => cases hx
  | string _ => exact List.mem_cons_self

theorem written_shown (k : ListKey) {x : Repr' × List (Val Str)} (h : x.1 = .string → (∀ v ∈ x.2, v.val ≠ []) ∨ ∃ v, x.2 = [v]) :
    k.written x = k.shown x := by
  unfold ListKey.written ListKey.shown
  obtain ⟨r, l⟩ := x
  cases k.isFlags <;> cases r
  · simp only [Bool.false_eq_true, if_false, false_or, reduceCtorEq]
    rcases h rfl with h | ⟨v, h⟩
    · rw [pushWords_eq _ h]
    · dsimp only at h
      subst h
      rfl
  all_goals (simp [serList_eq, Function.comp_def])

theorem progWritten_shown (x : Repr' × List (Val Str)) : progWritten x = progShown x := by
  unfold progWritten progShown
  obtain ⟨r, l⟩ := x
  cases r <;> simp [serList_eq, Function.comp_def]

theorem ListKey.shown_notTable (k : ListKey) (x : Repr' × List (Val Str)) : (k.shown x).NotTable := by
  intro l h; unfold ListKey.shown at h; split at h <;> cases h
theorem progShown_notTable (x : Repr' × List (Val Str)) : (progShown x).NotTable := by
  intro l h; unfold progShown at h; split at h <;> cases h

/-- What is printed of a config loaded from documents. -/
theorem shows_of {raws : List (Path × Config)} {docs : List (Path × Toml)} {c : Config} (hr : ListRel ReadAs raws docs)
    (hw : ∀ c ∈ located raws, c.WF) (h : mergeList (located raws) = .ok c) :
    ∃ es, printConfig .toml c = es.map .ofEntry ∧ Shows docs es ∧ ∀ p v, (p, v) ∈ es ↔ c.ser.at p = some v ∧ ∀ l, v ≠ .tbl l := by
  obtain ⟨es, h1, h2, h3⟩ := printConfig_entries c
  refine ⟨es, h1, ⟨h2, fun k v => ?_, fun k => ?_, fun k => ?_, fun e he => ?_⟩, h3⟩
  · simp only [h3]
    rw [scalar_somewhere, mergeList_scalar h hw, located, List.map_map]
    have e := congrArg (Option.map Prod.fst) (merged_scalar hr k)
    have e1 : (raws.map fun x => (k.get x.2).map (Val.foundIn x.1)) =
        raws.map ((fun c => ScalarKey.get c k) ∘ fun x => Config.setPath x.1 x.2) := by
      apply List.map_congr_left
      rintro ⟨p, raw⟩ _
      exact (scalar_setPath p raw k).symm
    simp only [Option.map_map, Function.comp_def] at e e1 ⊢
    rw [← e1, e]
    have e2 := firstSome_map (fun x : Toml × Definition => x.1) (docs.map fun x => (x.2.at (k.path x.2.envIsTable)).map fun y => (y, Definition.path x.1))
    rw [e2, List.map_map]
    simp only [Option.map_map, Function.comp_def, Option.map_id']
  · have := mergeList_list h hw k
    rw [located, List.filterMap_map] at this
    have e : ((fun c => ListKey.get c k) ∘ fun x : Path × Config => Config.setPath x.1 x.2) =
        fun x : Path × Config => (k.get x.2).map (allFoundIn x.1) := by
      funext x; exact list_setPath x.1 x.2 k
    rw [e] at this
    have hl := merged_lists hr k.splits k.path (fun c => k.get c) fun t c h1 h2 => list_read h1 h2 k
    refine ⟨_, _, hl, this, fun v => ?_⟩
    rw [h3, list_write]
    cases hg : k.get c with
    | none => simp
    | some x =>
      rw [hg] at this
      simp only [Option.map_some, Option.some.injEq]
      rw [written_shown k fun hx => listsIn_string hl x (joinedList_string this hx) hx]
      constructor
      · exact fun h => h.1
      · rintro rfl; exact ⟨rfl, k.shown_notTable x⟩
  · have := mergeList_prog h hw k
    rw [located, List.filterMap_map] at this
    have e : ((fun c => ProgKey.get c k) ∘ fun x : Path × Config => Config.setPath x.1 x.2) =
        fun x : Path × Config => (k.get x.2).map (allFoundIn x.1) := by
      funext x; exact prog_setPath x.1 x.2 k
    rw [e] at this
    refine ⟨_, _, merged_lists hr true k.path (fun c => k.get c) fun t c h1 h2 => prog_read h1 h2 k, this, fun v => ?_⟩
    rw [h3, prog_write]
    cases hg : k.get c with
    | none => simp
    | some x =>
      simp only [Option.map_some, Option.some.injEq]
      rw [progWritten_shown]
      constructor
      · exact fun h => h.1
      · rintro rfl; exact ⟨rfl, progShown_notTable x⟩
  · obtain ⟨hs, hv⟩ := (h3 e.1 e.2).1 he
    rcases Config.ser_only (mergeList_wf h hw).env _ _ hs with ⟨_, h⟩ | ⟨⟨l, h⟩, _⟩
    · rcases h with ⟨k, h⟩ | h
      · exact .inl ⟨k, _, h⟩
      · exact .inr h
    · exact absurd h (hv l)

variable {fs : Fs} {toml : Str → Res Toml}

/-- The part for one file. -/
theorem fileBlock_of (ht : ∀ s t, toml s = .ok t → t.DistinctKeys) {f : Path} {t : Toml} {text : Str} (h1 : fs.read f = .ok text)
    (h2 : toml text = .ok t) (hc : t.IsConfig) : ∃ c, loadFile fs (fun s => toml s >>= Config.de) f = .ok c ∧
      FileBlock f t (.comment f :: printConfig .toml c ++ [.blank]) := by
  have hd : ∀ g u, (g, u) ∈ [(f, t)] → ∃ text, fs.read g = .ok text ∧ toml text = .ok u := by
    intro g u h; cases List.mem_singleton.1 h; exact ⟨text, h1, h2⟩
  obtain ⟨raws, e, hraws⟩ := raws_of_docs ht [(f, t)] hd (fun g u h => by cases List.mem_singleton.1 h; exact hc)
  have hr := readAs_of_same e hraws hd ht
  cases hr with
  | cons ha hr =>
    cases hr
    rename_i x
    obtain ⟨g, raw⟩ := x
    obtain ⟨rfl, h3, _⟩ := ha
    refine ⟨raw.setPath g, loadFile_ok.2 ⟨raw, hraws g raw (by simp), rfl⟩, ?_⟩
    obtain ⟨es, h4, h5, _⟩ := shows_of (raws := [(g, raw)]) (docs := [(g, t)]) (.cons ⟨rfl, h3, ht _ _ h2⟩ .nil)
      (located_wf (fun s c => toml_wf s c) ⟨rfl, hraws⟩) rfl
    rw [h4]
    exact .mk h5

/-- The parts for files in order, and what follows. -/
theorem getFiles_append (ht : ∀ s t, toml s = .ok t → t.DistinctKeys) : ∀ (docs : List (Path × Toml)) (rest : List Path),
    (∀ f t, (f, t) ∈ docs → ∃ text, fs.read f = .ok text ∧ toml text = .ok t) → (∀ f t, (f, t) ∈ docs → t.IsConfig) →
    ∃ ls, FileBlocks docs ls ∧ getFiles fs (fun s => toml s >>= Config.de) .toml (docs.map Prod.fst ++ rest) =
      (ls ++ (getFiles fs (fun s => toml s >>= Config.de) .toml rest).1, (getFiles fs (fun s => toml s >>= Config.de) .toml rest).2)
  | [], rest, _, _ => ⟨[], .nil, rfl⟩
  | (f, t) :: docs, rest, hr, hc => by
    obtain ⟨text, h1, h2⟩ := hr f t (by simp)
    obtain ⟨c, h3, h4⟩ := fileBlock_of ht h1 h2 (hc f t (by simp))
    obtain ⟨ls, h5, h6⟩ := getFiles_append ht docs rest (fun f t h => hr f t (by simp [h])) (fun f t h => hc f t (by simp [h]))
    refine ⟨_, .cons h4 h5, ?_⟩
    simp only [List.map_cons, List.cons_append, getFiles, h3, h6]
    simp

theorem mem_getNotes : ∀ (vars : List (OsStr × OsStr)) (k v : Str), (k, v) ∈ getNotes vars ↔
    (.unicode k, .unicode v) ∈ vars ∧ ∃ s, k = "CARGO_".toList ++ s := by
  intro vars k v
  induction vars with
  | nil => simp [getNotes]
  | cons x vars ih =>
    have hp : ∀ n : Str, startsWith "CARGO_".toList n = true ↔ ∃ s, n = "CARGO_".toList ++ s := fun n => by
      rw [startsWith, Option.isSome_iff_exists]
      simp only [stripPrefix_eq_some]
    obtain ⟨a, b⟩ := x
    cases a with
    | invalid _ => simp [getNotes, ih]
    | unicode n =>
      cases b with
      | invalid _ => simp [getNotes, ih]
      | unicode w =>
        rw [getNotes]
        by_cases hn : startsWith "CARGO_".toList n = true
        · rw [if_pos hn]
          simp only [List.mem_cons, ih, Prod.mk.injEq, OsStr.unicode.injEq]
          constructor
          · rintro (⟨rfl, rfl⟩ | h)
            · exact ⟨.inl ⟨rfl, rfl⟩, (hp _).1 hn⟩
            · exact ⟨.inr h.1, h.2⟩
          · rintro ⟨h | h, h'⟩
            · exact .inl h
            · exact .inr ⟨h, h'⟩
        · rw [if_neg hn]
          simp only [List.mem_cons, ih, Prod.mk.injEq, OsStr.unicode.injEq]
          constructor
          · rintro ⟨h, h'⟩; exact ⟨.inr h, h'⟩
          · rintro ⟨⟨rfl, rfl⟩ | h, h'⟩
            · exact absurd ((hp _).2 h') hn
            · exact ⟨h, h'⟩

theorem joinWith_inj {c : Char} {p q : List Str} (hp : p ≠ []) (hq : q ≠ []) (dp : ∀ s ∈ p, c ∉ s) (dq : ∀ s ∈ q, c ∉ s)
    (h : joinWith c p = joinWith c q) : p = q := by
  rw [← splitOn_joinWith c p hp dp, ← splitOn_joinWith c q hq dq, h]

/-! ### the command line -/

theorem getFormat_parse {s : Str} {f : GetFormat} : GetFormat.parse s = .ok f ↔
    s = "toml".toList ∧ f = .toml ∨ s = "json".toList ∧ f = .json := by
  unfold GetFormat.parse
  by_cases h1 : s = "toml".toList
  · subst h1; rw [if_pos rfl]; cases f <;> simp
  · rw [if_neg h1]
    by_cases h2 : s = "json".toList
    · subst h2; rw [if_pos rfl]; cases f <;> simp
    · rw [if_neg h2]
      constructor
      · intro h; cases h
      · rintro (h | h)
        · exact absurd h.1 h1
        · exact absurd h.1 h2
theorem getMerged_parse {s : Str} {m : GetMerged} : GetMerged.parse s = .ok m ↔
    s = "yes".toList ∧ m = .yes ∨ s = "no".toList ∧ m = .no := by
  unfold GetMerged.parse
  by_cases h1 : s = "yes".toList
  · subst h1; rw [if_pos rfl]; cases m <;> simp
  · rw [if_neg h1]
    by_cases h2 : s = "no".toList
    · subst h2; rw [if_pos rfl]; cases m <;> simp
    · rw [if_neg h2]
      constructor
      · intro h; cases h
      · rintro (h | h)
        · exact absurd h.1 h1
        · exact absurd h.1 h2

theorem args_both {as : List GetArg} {f f' : GetFormat} {m m' : GetMerged} (h : getArgsLoop as (some f) (some m) = .ok (.run f' m')) :
    as = [] ∧ f' = f ∧ m' = m := by
  cases as with
  | nil => cases h; exact ⟨rfl, rfl, rfl⟩
  | cons a as => cases a <;> cases h

theorem args_format {as : List GetArg} {f f' : GetFormat} {m' : GetMerged} (h : getArgsLoop as (some f) none = .ok (.run f' m')) :
    f' = f ∧ (as = [] ∧ m' = .yes ∨ ∃ s, as = [.merged s] ∧ GetMerged.parse s = .ok m') := by
  cases as with
  | nil => cases h; exact ⟨rfl, .inl ⟨rfl, rfl⟩⟩
  | cons a as =>
    cases a with
    | merged s =>
      obtain ⟨m, hm, h⟩ := Res.bind_eq_ok.1 (show (GetMerged.parse s >>= fun m => getArgsLoop as (some f) (some m)) = _ from h)
      obtain ⟨rfl, rfl, rfl⟩ := args_both h
      exact ⟨rfl, .inr ⟨s, rfl, hm⟩⟩
    | _ => cases h

theorem args_merged {as : List GetArg} {f' : GetFormat} {m m' : GetMerged} (h : getArgsLoop as none (some m) = .ok (.run f' m')) :
    m' = m ∧ (as = [] ∧ f' = .toml ∨ ∃ s, as = [.format s] ∧ GetFormat.parse s = .ok f') := by
  cases as with
  | nil => cases h; exact ⟨rfl, .inl ⟨rfl, rfl⟩⟩
  | cons a as =>
    cases a with
    | format s =>
      obtain ⟨f, hf, h⟩ := Res.bind_eq_ok.1 (show (GetFormat.parse s >>= fun f => getArgsLoop as (some f) (some m)) = _ from h)
      obtain ⟨rfl, rfl, rfl⟩ := args_both h
      exact ⟨rfl, .inr ⟨s, rfl, hf⟩⟩
    | _ => cases h

theorem args_run {as : List GetArg} {f : GetFormat} {m : GetMerged} (h : getArgs as = .ok (.run f m)) :
    as = [] ∧ f = .toml ∧ m = .yes ∨
    (∃ s, as = [.format s] ∧ GetFormat.parse s = .ok f ∧ m = .yes) ∨ (∃ s, as = [.merged s] ∧ GetMerged.parse s = .ok m ∧ f = .toml) ∨
    ∃ s t, (as = [.format s, .merged t] ∨ as = [.merged t, .format s]) ∧ GetFormat.parse s = .ok f ∧ GetMerged.parse t = .ok m := by
  unfold getArgs at h
  cases as with
  | nil => cases h; exact .inl ⟨rfl, rfl, rfl⟩
  | cons a as =>
    cases a with
    | format s =>
      obtain ⟨f', hf, h⟩ := Res.bind_eq_ok.1 (show (GetFormat.parse s >>= fun f => getArgsLoop as (some f) none) = _ from h)
      obtain ⟨rfl, ⟨rfl, rfl⟩ | ⟨t, rfl, hm⟩⟩ := args_format h
      · exact .inr (.inl ⟨s, rfl, hf, rfl⟩)
      · exact .inr (.inr (.inr ⟨s, t, .inl rfl, hf, hm⟩))
    | merged s =>
      obtain ⟨m', hm, h⟩ := Res.bind_eq_ok.1 (show (GetMerged.parse s >>= fun m => getArgsLoop as none (some m)) = _ from h)
      obtain ⟨rfl, ⟨rfl, rfl⟩ | ⟨t, rfl, hf⟩⟩ := args_merged h
      · exact .inr (.inr (.inl ⟨s, rfl, hm, rfl⟩))
      · exact .inr (.inr (.inr ⟨t, s, .inr rfl, hf, hm⟩))
    | _ => cases h

theorem perm_pair {α : Type} {l : List α} {a b : α} (h : l.Perm [a, b]) : l = [a, b] ∨ l = [b, a] := by
  have hl := h.length_eq
  match l, hl with
  | [x, y], _ =>
    have hx : x = a ∨ x = b := by simpa using h.subset (List.mem_cons_self (a := x))
    rcases hx with rfl | rfl
    · have := (List.perm_cons x).1 h
      rw [List.perm_singleton] at this
      rw [this]; exact .inl rfl
    · have := (List.perm_cons x).1 (h.trans (List.Perm.swap x a []))
      rw [List.perm_singleton] at this
      rw [this]; exact .inr rfl

end CC
