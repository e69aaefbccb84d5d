import Verif.Props.Settings
import Verif.Props.TargetDocs
import Verif.Lemmas.TargetOutcome
/-
Lemmas for C87: tables of two loads under different keys.
-/
namespace CC

variable {p p' : ProcEnv} {fs fs' : Fs} {toml toml' : Str → Res Toml} {cwd cwd' : Path} {o o' : Options} {c c' : EConfig} {s s' : Cells}
  {look look' : Str → Option OsStr} {home home' : Option Path} {docs docs' : List (Path × Toml)}

theorem saidAt_below {p q : List Str} {docs docs' : List (Path × Toml)} (h : saidAt p docs = saidAt q docs') (r : List Str) :
    saidAt (p ++ r) docs = saidAt (q ++ r) docs' := by
  rw [saidAt_append, saidAt_append, h]

/-- What the documents say about the linker of a table. -/
theorem linker_source (look : Str → Option OsStr) (docs : List (Path × Toml)) (k : Str) :
    (ScalarKey.targetLinker k).source look docs =
      (saidAt ["target".toList, k, "linker".toList] docs).head?.map fun x => (x.2, .path x.1) := by
  have e : (ScalarKey.targetLinker k).source look docs = firstSome (docs.map fun (f, t) =>
      (t.at ["target".toList, k, "linker".toList]).map fun x => (x, Definition.path f)) := rfl
  rw [e, firstSome_head, ← List.head?_map]
  congr 1
  unfold saidAt
  rw [List.map_filterMap]
  congr 1
  funext d
  obtain ⟨f, t⟩ := d
  dsimp only
  rw [Option.map_map]
  rfl

theorem linker_inj {u v : Option (Val Str)}
    (h : (u.map (Val.map Atom.str)).map (fun v => (v.val.toml, v.defn)) = (v.map (Val.map Atom.str)).map fun v => (v.val.toml, v.defn)) :
    u = v := by
  rw [Option.map_map, Option.map_map] at h
  refine optMap_inj (fun x y h => ?_) h
  obtain ⟨x, d⟩ := x
  obtain ⟨y, e⟩ := y
  simp only [Function.comp_def, Val.map, Atom.toml, Prod.mk.injEq, Toml.str.injEq] at h
  rw [h.1, h.2]

/-- Tables with the same contents are read alike, whatever their keys are. -/
theorem Behind.entry_moved {de de' : Config} (h : Behind cwd look docs c de) (h' : Behind cwd' look' docs' c' de') (k k' : Str)
    (hp : (BMap.get de.target k).isSome = (BMap.get de'.target k').isSome)
    (hd : saidAt ["target".toList, k] docs = saidAt ["target".toList, k'] docs') : BMap.get de.target k = BMap.get de'.target k' := by
  have k1 : ((BMap.get de.target k).bind (·.linker)) = ((BMap.get de'.target k').bind (·.linker)) := by
    refine linker_inj ?_
    have e1 := h.scalar (.targetLinker k)
    have e2 := h'.scalar (.targetLinker k')
    rw [linker_source] at e1 e2
    have e3 := saidAt_below hd ["linker".toList]
    rw [show ["target".toList, k] ++ ["linker".toList] = ["target".toList, k, "linker".toList] from rfl,
      show ["target".toList, k'] ++ ["linker".toList] = ["target".toList, k', "linker".toList] from rfl] at e3
    rw [e3] at e1
    exact e1.trans e2.symm
  have k2 : ((BMap.get de.target k).bind (·.rustflags)) = ((BMap.get de'.target k').bind (·.rustflags)) := by
    refine flags_inj (listSource_unique (k := .targetRustflags k') (look := look') (docs := docs') ?_ (h'.list (.targetRustflags k')))
    obtain ⟨xs, h1, h2⟩ := h.list (.targetRustflags k)
    refine ⟨xs, ?_, h2⟩
    rw [listsIn_iff] at h1 ⊢
    exact (saidAt_below hd ["rustflags".toList]) ▸ h1
  have k3 : ((BMap.get de.target k).bind (·.rustdocflags)) = ((BMap.get de'.target k').bind (·.rustdocflags)) := by
    refine flags_inj (listSource_unique (k := .targetRustdocflags k') (look := look') (docs := docs') ?_
      (h'.list (.targetRustdocflags k')))
    obtain ⟨xs, h1, h2⟩ := h.list (.targetRustdocflags k)
    refine ⟨xs, ?_, h2⟩
    rw [listsIn_iff] at h1 ⊢
    exact (saidAt_below hd ["rustdocflags".toList]) ▸ h1
  have k4 : ((BMap.get de.target k).bind (·.runner)) = ((BMap.get de'.target k').bind (·.runner)) := by
    refine prog_inj (progSource_unique (k := .targetRunner k') (look := look') (docs := docs') ?_ (h'.prog (.targetRunner k')))
    obtain ⟨xs, h1, h2⟩ := h.prog (.targetRunner k)
    refine ⟨xs, ?_, h2⟩
    rw [listsIn_iff] at h1 ⊢
    exact (saidAt_below hd ["runner".toList]) ▸ h1
  generalize BMap.get de.target k = x at *
  generalize BMap.get de'.target k' = y at *
  cases x with
  | none => cases y with
    | none => rfl
    | some y => cases hp
  | some x => cases y with
    | none => cases hp
    | some y =>
      cases x
      cases y
      simp only [Option.bind_some] at k1 k2 k3 k4
      simp [k1, k2, k3, k4]

theorem Loads.entry_moved (h : Loads p fs toml cwd o look home docs c s) (h' : Loads p' fs' toml' cwd' o' look' home' docs' c' s')
    {k k' : Str} (hd : saidAt ["target".toList, k] docs = saidAt ["target".toList, k'] docs') :
    BMap.get c.deTarget k = BMap.get c'.deTarget k' := by
  obtain ⟨de, d⟩ := h.behind
  obtain ⟨de', d'⟩ := h'.behind
  have r1 : c.deTarget = de.target := by rw [d.rest]
  have r2 : c'.deTarget = de'.target := by rw [d'.rest]
  have e : (BMap.get c.deTarget k).isSome = (BMap.get c'.deTarget k').isSome := by
    rw [Bool.eq_iff_iff, h.target_entry, h'.target_entry, hd]
  rw [r1, r2] at e ⊢
  exact d.entry_moved d' k k' e hd

/-- The matching tables are those of the keys of the specification. -/
theorem matching_keys (h : Loads p fs toml cwd o look home docs c s) {checks : Bool} {cs : Option CfgSet} {holds : Str → Bool} {ks : List Str}
    (he : Evaluated checks c.deTarget cs holds) (hk : CfgTables checks docs cs ks) :
    (matching c.deTarget holds).map some = ks.map (BMap.get c.deTarget) := by
  cases cfgTables_unique hk (cfgTables_matching h he)
  rw [matching_map (loads_sorted h)]
  simp only [bind_some_self]

theorem some_map_inj {α : Type} {a b : List α} (h : a.map some = b.map some) : a = b :=
  (List.map_inj_right fun _ _ h => Option.some.inj h).1 h

/-- The parts of a successful query for a target without an entry. -/
theorem target_unpack {w : World} {t : TargetTriple} {s1 : Cells} {e : ETarget} (hs : s.target.get t.cliTarget = none)
    (hq : c.target t w s = (.ok e, s1)) : isCfgKey t.triple = false ∧ ∃ a a1 sr,
      (TargetAcc.start (c.deTarget.get t.triple)).applyEnv c.cx.env t.triple = .ok a ∧
      cfgTables c.cx c.build t c.deTarget a w s = (.ok a1, sr) ∧
      ETarget.fromUnresolved c.cx.currentDir ((a1.finish c.build.overrideTargetRustflags c.build.deRustflags
        c.build.overrideTargetRustdocflags c.build.deRustdocflags).getD {}) = .ok e ∧
      s1 = { sr with target := sr.target.insert t.cliTarget e } := by
  rw [target_fresh hs] at hq
  split at hq
  · rename_i r sr hr
    obtain ⟨h0, a, a1, q1, q2, rfl⟩ := resolveTarget_ok hr
    split at hq
    · rename_i e0 he
      cases hq
      exact ⟨h0, a, a1, sr, q1, q2, he, rfl⟩
    · cases hq
    · cases hq
  · cases hq
  · cases hq

/-- The same put together again. -/
theorem target_pack {w : World} {t : TargetTriple} {sr : Cells} {e : ETarget} {a a1 : TargetAcc} (hs : s.target.get t.cliTarget = none)
    (h0 : isCfgKey t.triple = false) (q1 : (TargetAcc.start (c.deTarget.get t.triple)).applyEnv c.cx.env t.triple = .ok a)
    (q2 : cfgTables c.cx c.build t c.deTarget a w s = (.ok a1, sr))
    (q3 : ETarget.fromUnresolved c.cx.currentDir ((a1.finish c.build.overrideTargetRustflags c.build.deRustflags
        c.build.overrideTargetRustdocflags c.build.deRustdocflags).getD {}) = .ok e) :
    c.target t w s = (.ok e, { sr with target := sr.target.insert t.cliTarget e }) := by
  rw [target_fresh hs]
  have : resolveTarget c.cx c.deTarget c.build.overrideTargetRustflags c.build.deRustflags
      c.build.overrideTargetRustdocflags c.build.deRustdocflags t c.build w s =
      (.ok (a1.finish c.build.overrideTargetRustflags c.build.deRustflags
        c.build.overrideTargetRustdocflags c.build.deRustdocflags), sr) := by
    unfold resolveTarget
    rw [startsWith_cfg, h0]
    simp only [Bool.false_eq_true, if_false, Bind.bind, Act.bind, Act.lift, q1, q2]
    rfl
  rw [this]
  simp only [q3]

theorem matching_filter {m m' : BMap TargetConfig} (hm : m.Sorted) (hm' : m'.Sorted) {holds : Str → Bool}
    (h : ∀ k, isCfgKey k = true → holds k = true → BMap.get m' k = BMap.get m k) : matching m' holds = matching m holds := by
  unfold matching
  congr 1
  refine BMap.ext (List.Pairwise.filter _ hm') (List.Pairwise.filter _ hm) fun k => ?_
  rw [get_filter m' (fun k => isCfgKey k && holds k), get_filter m (fun k => isCfgKey k && holds k)]
  by_cases hk : (isCfgKey k && holds k) = true
  · rw [if_pos hk, if_pos hk]
    rw [Bool.and_eq_true] at hk
    exact h k hk.1 hk.2
  · rw [if_neg hk, if_neg hk]

end CC
