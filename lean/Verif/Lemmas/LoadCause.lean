import Verif.Lemmas.MergeCause
/-
Helper lemmas on the error of a failed load.
-/
namespace CC

variable {fs : Fs} {toml : Str → Res Toml}

/-! ### errors of loading -/

/-- The cause of a failed merge, in terms of documents. -/
theorem mergeBlamed_of {raws : List (Path × Config)} {docs : List (Path × Toml)} {b raw : Config} {f : Path} {t : Toml} {src : Err}
    (hr : ListRel ReadAs raws docs) (hne : raws ≠ []) (hw : ∀ c ∈ located raws, c.WF) (hm : mergeList (located raws) = .ok b)
    (ht : Config.de t = .ok raw) (hd : t.DistinctKeys) (hraw : (raw.setPath f).WF) (h : mergeConfig b (raw.setPath f) false = .err src) :
    MergeBlamed docs t src := by
  obtain ⟨p, x, y, hp⟩ := mergeConfig_err hraw.maps h
  have key : ∀ (q : Spot) (z : Str), q.shapeIn b = some z ↔ ∃ d ∈ docs, (d.2.at q.path).map Toml.shape = some z := by
    intro q z
    cases raws with
    | nil => exact absurd rfl hne
    | cons r raws =>
      have hm : mergeAll (r.2.setPath r.1) (located raws) = .ok b := hm
      rw [shape_all hm (hw _ List.mem_cons_self) (fun c hc => hw c (List.mem_cons_of_mem _ hc)) q z]
      constructor
      · rintro ⟨c, hc, hz⟩
        obtain ⟨w, hwm, rfl⟩ := List.mem_map.1 (show c ∈ located (r :: raws) from hc)
        obtain ⟨d, hdm, -, h1, h2⟩ := (listRel_mem hr).1 w hwm
        rw [shape_setPath, shape_read h1 h2] at hz
        exact ⟨d, hdm, hz⟩
      · rintro ⟨d, hdm, hz⟩
        obtain ⟨w, hwm, -, h1, h2⟩ := (listRel_mem hr).2 d hdm
        refine ⟨w.2.setPath w.1, show _ ∈ located (r :: raws) from List.mem_map.2 ⟨w, hwm, rfl⟩, ?_⟩
        rw [shape_setPath, shape_read h1 h2]
        exact hz
  have far : ∀ q : Spot, q.shapeIn (raw.setPath f) = (t.at q.path).map Toml.shape := fun q => by rw [shape_setPath, shape_read ht hd]
  refine ⟨p, x, y, ?_, ?_, hp.tells⟩
  · obtain ⟨d, hdm, hx⟩ := (key p x).1 hp.near
    exact ⟨d, hdm, hx, (far p).symm.trans hp.far, hp.ne⟩
  · rintro q hq d hdm x' y' ⟨h1, h2, h3⟩
    exact h3 (hp.first q hq x' y' ((key q x').2 ⟨d, hdm, h1⟩) ((far q).trans h2))

/-- What `loadFile` says of a file after others that are in order. -/
theorem loadFile_blame {files : List Path} {f : Path} {docs : List (Path × Toml)} {e : Err} (hi : InOrderUpTo fs toml files docs f)
    (ht : ∀ s t, toml s = .ok t → t.DistinctKeys)
    (h : loadFile fs (fun s => toml s >>= Config.de) f = .err e) (sh : Shown) : FileBlamed fs toml files (e.display sh) e.source := by
  unfold loadFile at h
  rcases Res.bind_eq_err.1 h with h | ⟨text, h1, h⟩
  · obtain ⟨src, hx, rfl⟩ := withContext_eq_err h
    rw [display_context, fill_read]
    exact .read docs f src hi hx
  · rw [Res.withContext_eq_ok] at h1
    rcases Res.bind_eq_err.1 h with h | ⟨c, _, h⟩
    · obtain ⟨src, hx, rfl⟩ := withContext_eq_err h
      rw [display_context, fill_parse]
      rcases Res.bind_eq_err.1 hx with h | ⟨t, h2, h⟩
      · exact .syntactic docs f text src hi h1 h
      · obtain ⟨what, rfl⟩ := Config.de_tomlErr t _ h
        refine .config docs f text t what hi h1 h2 fun hx => ?_
        obtain ⟨c, hx⟩ := (C62_accepted_iff t (ht _ _ h2)).2 hx
        rw [hx] at h
        cases h
    · cases h

theorem loadLoop_blame (ht : ∀ s t, toml s = .ok t → t.DistinctKeys) {files : List Path} {nearest : Path} (paths : List Path) :
    ∀ (pre : List Path) (b : Config) (raws : List (Path × Config)) (e : Err), files = nearest :: pre ++ paths →
      FilesRead fs.read (fun s => toml s >>= Config.de) (nearest :: pre) raws → mergeList (located raws) = .ok b →
      loadLoop fs (fun s => toml s >>= Config.de) paths (some (nearest, b)) = .err e → ∀ sh,
      FileBlamed fs toml files (e.display sh) e.source := by
  induction paths with
  | nil => intro _ _ _ _ _ _ _ h; cases h
  | cons f paths ih =>
    intro pre b raws e hs hf hm h sh
    obtain ⟨docs, hn, hc, hr⟩ := contents_of_read ht hf
    have hg := docsGood_of hf hr hm
    have hi : InOrderUpTo fs toml files docs f := ⟨⟨paths, by rw [hn]; exact hs⟩, hc, hg⟩
    rw [loadLoop] at h
    rcases Res.bind_eq_err.1 h with h | ⟨c, h1, h⟩
    · exact loadFile_blame hi ht h sh
    · obtain ⟨raw, ⟨text, h2, h3⟩, rfl⟩ := loadFile_ok.1 h1
      have hf' : FilesRead fs.read (fun s => toml s >>= Config.de) (nearest :: (pre ++ [f])) (raws ++ [(f, raw)]) := by
        rw [← List.cons_append]
        exact filesRead_append.2 ⟨raws, _, rfl, hf, filesRead_cons.2 ⟨raw, [], rfl, ⟨text, h2, h3⟩, ⟨rfl, by simp⟩⟩⟩
      have hloc : mergeList (located (raws ++ [(f, raw)])) = mergeConfig b (raw.setPath f) false := by
        obtain ⟨x, raws', rfl, -, -⟩ := filesRead_cons.1 hf
        have hm : mergeAll (x.setPath nearest) (located raws') = .ok b := hm
        show mergeAll (x.setPath nearest) (located (raws' ++ [(f, raw)])) = _
        rw [located, List.map_append, mergeAll_append, ← located, hm, Res.ok_bind]
        show (mergeConfig b (raw.setPath f) false >>= fun m => .ok m) = _
        cases mergeConfig b (raw.setPath f) false <;> rfl
      dsimp only at h
      rcases Res.bind_eq_err.1 h with h | ⟨b', h4, h⟩
      · obtain ⟨src, hx, rfl⟩ := withContext_eq_err h
        rw [display_context, fill_merge]
        rw [Res.bind_eq_ok] at h3
        obtain ⟨t, h3, h5⟩ := h3
        obtain ⟨⟨n', u⟩, docs, rfl⟩ : ∃ x docs', docs = x :: docs' := by
          cases docs with
          | nil => cases hn
          | cons x docs => exact ⟨x, docs, rfl⟩
        simp only [List.map_cons, List.cons.injEq] at hn
        obtain ⟨rfl, -⟩ := hn
        refine .merge _ u docs f text t src hi h2 h3 ((C62_accepted_iff t (ht _ _ h3)).1 ⟨_, h5⟩) ?_ ?_ (mergeConfig_own _ _ _ _ hx)
        · have hno : ¬ ∃ r, mergeList (located (raws ++ [(f, raw)])) = .ok r := by
            rw [hloc, hx]; rintro ⟨_, h⟩; cases h
          rw [mergeList_ok_iff (located_wf (fun s c => toml_wf s c) hf'), located, List.pairwise_map] at hno
          simp only [shapeConflict_setPath] at hno
          rw [List.pairwise_append] at hno
          have hp : raws.Pairwise fun x y => ¬ ShapeConflict x.2 y.2 := (pairwise_apart hr).2 hg.spelling
          have hx : ∃ x ∈ raws, ShapeConflict x.2 raw := by
            apply Classical.byContradiction
            intro hx
            refine hno ⟨hp, by simp, fun x hm y hy => ?_⟩
            rw [List.mem_singleton] at hy
            subst hy
            exact fun hc => hx ⟨x, hm, hc⟩
          obtain ⟨x, hm, hx⟩ := hx
          obtain ⟨y, hy, hxy⟩ := (listRel_mem hr).1 x hm
          exact ⟨y, hy, (spelledApart_iff hxy (y := (f, raw)) (b := (f, t)) ⟨rfl, h5, ht _ _ h3⟩).1 hx⟩
        · have hw := located_wf (fun s c => toml_wf s c) hf'
          rw [located, List.map_append] at hw
          refine mergeBlamed_of hr ?_ (fun c hc => hw c (List.mem_append_left _ hc)) hm h5 (ht _ _ h3)
            (hw _ (List.mem_append_right _ List.mem_cons_self)) hx
          rintro rfl
          obtain ⟨x, raws', e, -, -⟩ := filesRead_cons.1 hf
          cases e
      · rw [Res.withContext_eq_ok] at h4
        exact ih (pre ++ [f]) b' _ e (by rw [hs]; simp) hf' (by rw [hloc, h4]) h sh

theorem loadPaths_blame (ht : ∀ s t, toml s = .ok t → t.DistinctKeys) {files : List Path} {e : Err}
    (h : loadPaths fs (fun s => toml s >>= Config.de) files = .err e) (sh : Shown) : FileBlamed fs toml files (e.display sh) e.source := by
  unfold loadPaths at h
  rcases Res.bind_eq_err.1 h with h | ⟨o, _, h⟩
  · cases files with
    | nil => cases h
    | cons f files =>
      rw [loadLoop] at h
      rcases Res.bind_eq_err.1 h with h | ⟨c, h1, h⟩
      · exact loadFile_blame (docs := []) ⟨⟨files, rfl⟩, fun _ _ hm => (by cases hm),
          fun _ _ hm => (by cases hm), List.Pairwise.nil⟩ ht h sh
      · obtain ⟨raw, hx, rfl⟩ := loadFile_ok.1 h1
        exact loadLoop_blame ht files [] _ [(f, raw)] e rfl (filesRead_cons.2 ⟨raw, [], rfl, hx, ⟨rfl, by simp⟩⟩) rfl h sh
  · split at h <;> cases h

/-! ### there is one first file that is not in order -/

/-- The file is not in order after the documents `docs`. -/
def BadAfter (fs : Fs) (toml : Str → Res Toml) (docs : List (Path × Toml)) (f : Path) : Prop :=
  ∀ text t, fs.read f = .ok text → toml text = .ok t → t.IsConfig → ∃ x ∈ docs, SpelledApart x.2 t

/-- Documents before the first bad file are not bad. -/
theorem inOrder_prefix {files : List Path} {docs docs' : List (Path × Toml)} {f f' : Path} (h : InOrderUpTo fs toml files docs f)
    (hb : BadAfter fs toml docs f) (h' : InOrderUpTo fs toml files docs' f') : ∃ l, docs = docs' ++ l := by
  obtain ⟨⟨r, e⟩, c, g⟩ := h
  obtain ⟨⟨r', e'⟩, c', g'⟩ := h'
  rw [e] at e'
  clear e
  have key : ∀ (pre docs docs' : List (Path × Toml)), BadAfter fs toml (pre ++ docs) f →
      docs.map Prod.fst ++ f :: r = docs'.map Prod.fst ++ f' :: r' →
      (∀ g t, (g, t) ∈ docs → ∃ text, fs.read g = .ok text ∧ toml text = .ok t) →
      (∀ g t, (g, t) ∈ docs' → ∃ text, fs.read g = .ok text ∧ toml text = .ok t) → DocsGood (pre ++ docs') →
      ∃ l, docs = docs' ++ l := by
    intro pre docs docs'
    induction docs' generalizing pre docs with
    | nil => intro _ _ _ _ _; exact ⟨docs, rfl⟩
    | cons x docs' ih =>
      obtain ⟨k, t⟩ := x
      intro hb e c c' g'
      obtain ⟨text, h1, h2⟩ := c' k t (by simp)
      cases docs with
      | nil =>
        simp only [List.map_nil, List.nil_append, List.map_cons, List.cons_append, List.cons.injEq] at e
        obtain ⟨rfl, -⟩ := e
        rw [List.append_nil] at hb
        obtain ⟨x, hx, hs⟩ := hb text t h1 h2 (g'.configs f t (by simp))
        have := (List.pairwise_append.1 g'.spelling).2.2 x hx (f, t) (by simp)
        exact absurd hs this
      | cons y docs =>
        obtain ⟨k', t'⟩ := y
        simp only [List.map_cons, List.cons_append, List.cons.injEq] at e
        obtain ⟨rfl, e⟩ := e
        obtain ⟨text', h1', h2'⟩ := c k' t' (by simp)
        rw [h1'] at h1
        cases Res.ok.inj h1
        rw [h2'] at h2
        cases Res.ok.inj h2
        obtain ⟨l, rfl⟩ := ih (pre ++ [(k', t)]) docs (by rw [List.append_assoc]; exact hb) e
          (fun g t hm => c g t (List.mem_cons_of_mem _ hm)) (fun g t hm => c' g t (List.mem_cons_of_mem _ hm))
          (by rw [List.append_assoc]; exact g')
        exact ⟨l, rfl⟩
  exact key [] docs docs' hb e' c c' g'

theorem inOrder_unique {files : List Path} {docs docs' : List (Path × Toml)} {f f' : Path} (h : InOrderUpTo fs toml files docs f)
    (hb : BadAfter fs toml docs f) (h' : InOrderUpTo fs toml files docs' f') (hb' : BadAfter fs toml docs' f') :
    docs = docs' ∧ f = f' := by
  obtain ⟨l, e⟩ := inOrder_prefix h hb h'
  obtain ⟨l', e'⟩ := inOrder_prefix h' hb' h
  have hl : l = [] := by
    rw [e] at e'
    have := congrArg List.length e'
    simp only [List.length_append] at this
    cases l with
    | nil => rfl
    | cons _ _ => simp at this; omega
  subst hl
  rw [List.append_nil] at e
  subst e
  obtain ⟨⟨r, e⟩, _, _⟩ := h
  obtain ⟨⟨r', e'⟩, _, _⟩ := h'
  rw [e] at e'
  have := List.append_cancel_left e'
  cases this
  exact ⟨rfl, rfl⟩

theorem bad_not_good {files : List Path} {docs docs' : List (Path × Toml)} {f : Path} (h : InOrderUpTo fs toml files docs f)
    (hb : BadAfter fs toml docs f) (hn : docs'.map Prod.fst = files)
    (hc : ∀ g t, (g, t) ∈ docs' → ∃ text, fs.read g = .ok text ∧ toml text = .ok t) (hg : DocsGood docs') : False := by
  obtain ⟨⟨r, e⟩, c, g⟩ := h
  have key : ∀ (pre docs docs' : List (Path × Toml)), BadAfter fs toml (pre ++ docs) f →
      docs.map Prod.fst ++ f :: r = docs'.map Prod.fst →
      (∀ g t, (g, t) ∈ docs → ∃ text, fs.read g = .ok text ∧ toml text = .ok t) →
      (∀ g t, (g, t) ∈ docs' → ∃ text, fs.read g = .ok text ∧ toml text = .ok t) → DocsGood (pre ++ docs') → False := by
    intro pre docs docs'
    induction docs' generalizing pre docs with
    | nil => intro _ e _ _ _; cases docs <;> cases e
    | cons x docs' ih =>
      obtain ⟨k, t⟩ := x
      intro hb e c c' g'
      obtain ⟨text, h1, h2⟩ := c' k t (by simp)
      cases docs with
      | nil =>
        simp only [List.map_nil, List.nil_append, List.map_cons, List.cons.injEq] at e
        obtain ⟨rfl, -⟩ := e
        rw [List.append_nil] at hb
        obtain ⟨x, hx, hs⟩ := hb text t h1 h2 (g'.configs f t (by simp))
        have := (List.pairwise_append.1 g'.spelling).2.2 x hx (f, t) (by simp)
        exact absurd hs this
      | cons y docs =>
        obtain ⟨k', t'⟩ := y
        simp only [List.map_cons, List.cons_append, List.cons.injEq] at e
        obtain ⟨rfl, e⟩ := e
        obtain ⟨text', h1', h2'⟩ := c k' t' (by simp)
        rw [h1'] at h1
        cases Res.ok.inj h1
        rw [h2'] at h2
        cases Res.ok.inj h2
        exact ih (pre ++ [(k', t)]) docs (by rw [List.append_assoc]; exact hb) e
          (fun g t hm => c g t (List.mem_cons_of_mem _ hm)) (fun g t hm => c' g t (List.mem_cons_of_mem _ hm))
          (by rw [List.append_assoc]; exact g')
  exact key [] docs docs' hb (by rw [hn, e]) c hc hg

end CC
