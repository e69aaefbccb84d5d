import Verif.Lemmas.Accept
import Verif.Lemmas.Load
import Verif.Lemmas.EndToEnd
import Verif.Spec.Layout
/-
The layout of a config file does not matter.
-/
namespace CC

/-- The same success. -/
def SameOk {α : Type} (x y : Res α) : Prop := ∀ a, x = .ok a ↔ y = .ok a

theorem SameOk.rfl {α : Type} {x : Res α} : SameOk x x := fun _ => Iff.rfl

theorem SameOk.symm {α : Type} {x y : Res α} (h : SameOk x y) : SameOk y x := fun a => (h a).symm

theorem SameOk.trans {α : Type} {x y z : Res α} (h : SameOk x y) (h' : SameOk y z) : SameOk x z := fun a => (h a).trans (h' a)

theorem SameOk.of_imp {α : Type} {x y : Res α} (h : ∀ a, x = .ok a → y = .ok a) (h' : ∀ a, y = .ok a → x = .ok a) : SameOk x y :=
  fun a => ⟨h a, h' a⟩

theorem SameOk.bind {α β : Type} {x y : Res α} {f g : α → Res β} (h : SameOk x y) (hf : ∀ a, SameOk (f a) (g a)) :
    SameOk (x >>= f) (y >>= g) := by
  intro b
  rw [Res.bind_eq_ok, Res.bind_eq_ok]
  constructor
  · rintro ⟨a, h1, h2⟩; exact ⟨a, (h a).1 h1, (hf a b).1 h2⟩
  · rintro ⟨a, h1, h2⟩; exact ⟨a, (h a).2 h1, (hf a b).2 h2⟩

/-- The documents have the same at a place. -/
def AgreeAt (x y : Toml) (p : List Str) : Prop := (x.at p).map Toml.surface = (y.at p).map Toml.surface

theorem AgreeAt.symm {x y : Toml} {p : List Str} (h : AgreeAt x y p) : AgreeAt y x p := Eq.symm h

theorem AgreeAt.below {t t' x y : Toml} {p q : List Str} (hx : t.at p = some x) (hy : t'.at p = some y) (h : AgreeAt t t' (p ++ q)) :
    AgreeAt x y q := by
  simp only [AgreeAt, Toml.at_append, hx, hy, Option.bind_some] at h
  exact h

/-- A reader that does not look deeper. -/
def Flat {α : Type} (f : Toml → Res α) : Prop := ∀ x, f x.surface = f x

theorem Flat.eq {α : Type} {f : Toml → Res α} (hf : Flat f) {x y : Toml} (h : x.surface = y.surface) : f x = f y := by
  rw [← hf x, ← hf y, h]

theorem Flat.val {α : Type} {f : Toml → Res α} (hf : Flat f) : Flat (deVal f) := fun x => by
  simp only [deVal, hf x]

theorem flat_str : Flat deStr := fun x => by cases x <;> rfl
theorem flat_bool : Flat deBool := fun x => by cases x <;> rfl
theorem flat_i32 : Flat deI32 := fun x => by cases x <;> rfl
theorem flat_u32 : Flat deU32 := fun x => by cases x <;> rfl
theorem flat_vcs : Flat Vcs.de := fun x => by cases x <;> rfl
theorem flat_protocol : Flat Protocol.de := fun x => by cases x <;> rfl
theorem flat_color : Flat Color.de := fun x => by cases x <;> rfl
theorem flat_when : Flat When.de := fun x => by cases x <;> rfl
theorem flat_frequency : Flat Frequency.de := fun x => by cases x <;> rfl

theorem deElems_flat (l : List Toml) : deElems (deVal deStr) (l.map Toml.flat) = deElems (deVal deStr) l := by
  induction l with
  | nil => rfl
  | cons x l ih =>
    have : deVal deStr x.flat = deVal deStr x := by cases x <;> rfl
    simp only [List.map_cons, deElems, this, ih]

theorem flat_list : Flat deList := fun x => by
  cases x with
  | arr l => exact deElems_flat l
  | _ => rfl

theorem flat_stringOrArray : Flat StringOrArray.de := fun x => by
  cases x with
  | arr l =>
    show (deList (Toml.arr l).surface >>= _) = (deList (Toml.arr l) >>= _)
    rw [flat_list]
  | _ => rfl

theorem flat_flags : Flat Flags.de := fun x => by simp only [Flags.de, flat_stringOrArray x]
theorem flat_prog : Flat PathAndArgs.de := fun x => by simp only [PathAndArgs.de, flat_stringOrArray x]
theorem flat_stringList : Flat StringList.de := fun x => by simp only [StringList.de, flat_stringOrArray x]

theorem field_agree {α : Type} {l l' : List (Str × Toml)} {k : String} {f : Toml → Res α} (hf : Flat f)
    (h : AgreeAt (.tbl l) (.tbl l') [k.toList]) : SameOk (deField l k f) (deField l' k f) := by
  simp only [AgreeAt, Toml.at_tbl1] at h
  unfold deField
  revert h
  generalize BMap.get l k.toList = a
  generalize BMap.get l' k.toList = b
  intro h
  cases a with
  | none =>
    cases b with
    | none => exact .rfl
    | some y => cases h
  | some x =>
    cases b with
    | none => cases h
    | some y =>
      have : f x = f y := hf.eq (Option.some.inj h)
      simp only [this]
      exact .rfl

theorem section_agree {α : Type} {l l' : List (Str × Toml)} {k : String} {d : α} {f : Toml → Res α}
    (h : AgreeAt (.tbl l) (.tbl l') [k.toList])
    (hf : ∀ x y, (Toml.tbl l).at [k.toList] = some x → (Toml.tbl l').at [k.toList] = some y → x.surface = y.surface →
      SameOk (f x) (f y)) : SameOk (deSection l k d f) (deSection l' k d f) := by
  simp only [AgreeAt, Toml.at_tbl1] at h hf
  unfold deSection
  revert h hf
  generalize BMap.get l k.toList = a
  generalize BMap.get l' k.toList = b
  intro h hf
  cases a with
  | none =>
    cases b with
    | none => exact .rfl
    | some y => cases h
  | some x =>
    cases b with
    | none => cases h
    | some y => exact hf x y rfl rfl (Option.some.inj h)

/-- Both are tables, or neither is. -/
theorem tables_of_surface {x y : Toml} (h : x.surface = y.surface) :
    (∃ l l', x = .tbl l ∧ y = .tbl l') ∨ (∀ l, x ≠ .tbl l) ∧ ∀ l, y ≠ .tbl l := by
  cases x with
  | tbl l =>
    cases y with
    | tbl l' => exact .inl ⟨l, l', rfl, rfl⟩
    | _ => cases h
  | _ =>
    cases y with
    | tbl l' => cases h
    | _ => exact .inr ⟨nofun, nofun⟩

theorem not_tbl_congr {α : Type} {f : Toml → Res α} (hf : ∀ z, (∀ l, z ≠ .tbl l) → f z = deErr) {x y : Toml}
    (h : (∀ l, x ≠ .tbl l) ∧ ∀ l, y ≠ .tbl l) : SameOk (f x) (f y) := by
  rw [hf x h.1, hf y h.2]; exact .rfl

theorem build_agree {x y : Toml} (h0 : x.surface = y.surface) (h : ∀ k ∈ ["jobs", "rustc", "rustc-wrapper", "rustc-workspace-wrapper", "rustdoc", "target",
    "target-dir", "rustflags", "rustdocflags", "incremental", "dep-info-basedir"], AgreeAt x y [k.toList]) :
    SameOk (BuildConfig.de x) (BuildConfig.de y) := by
  rcases tables_of_surface h0 with ⟨l, l', rfl, rfl⟩ | hn
  · simp only [List.forall_mem_cons] at h
    obtain ⟨h1, h2, h3, h4, h5, h6, h7, h8, h9, h10, h11, _⟩ := h
    refine .bind (field_agree flat_i32.val h1) fun _ => .bind (field_agree flat_str.val h2) fun _ => ?_
    refine .bind (field_agree flat_str.val h3) fun _ => .bind (field_agree flat_str.val h4) fun _ => ?_
    refine .bind (field_agree flat_str.val h5) fun _ => .bind (field_agree flat_stringOrArray h6) fun _ => ?_
    refine .bind (field_agree flat_str.val h7) fun _ => .bind (field_agree flat_flags h8) fun _ => ?_
    refine .bind (field_agree flat_flags h9) fun _ => .bind (field_agree flat_bool.val h10) fun _ => ?_
    exact .bind (field_agree flat_str.val h11) fun _ => .rfl
  · refine not_tbl_congr (fun z hz => ?_) hn
    cases z with
    | tbl l => exact absurd rfl (hz l)
    | _ => rfl

theorem target_agree {x y : Toml} (h0 : x.surface = y.surface)
    (h : ∀ k ∈ ["linker", "runner", "rustflags", "rustdocflags"], AgreeAt x y [k.toList]) :
    SameOk (TargetConfig.de x) (TargetConfig.de y) := by
  rcases tables_of_surface h0 with ⟨l, l', rfl, rfl⟩ | hn
  · simp only [List.forall_mem_cons] at h
    obtain ⟨h1, h2, h3, h4, _⟩ := h
    refine .bind (field_agree flat_str.val h1) fun _ => .bind (field_agree flat_prog h2) fun _ => ?_
    exact .bind (field_agree flat_flags h3) fun _ => .bind (field_agree flat_flags h4) fun _ => .rfl
  · refine not_tbl_congr (fun z hz => ?_) hn
    cases z with
    | tbl l => exact absurd rfl (hz l)
    | _ => rfl

theorem doc_agree {x y : Toml} (h0 : x.surface = y.surface) (h : AgreeAt x y ["browser".toList]) :
    SameOk (DocConfig.de x) (DocConfig.de y) := by
  rcases tables_of_surface h0 with ⟨l, l', rfl, rfl⟩ | hn
  · exact .bind (field_agree flat_prog h) fun _ => .rfl
  · refine not_tbl_congr (fun z hz => ?_) hn
    cases z with
    | tbl l => exact absurd rfl (hz l)
    | _ => rfl

theorem report_agree {x y : Toml} (h0 : x.surface = y.surface) (h : AgreeAt x y ["frequency".toList]) :
    SameOk (FutureIncompatReportConfig.de x) (FutureIncompatReportConfig.de y) := by
  rcases tables_of_surface h0 with ⟨l, l', rfl, rfl⟩ | hn
  · exact .bind (field_agree flat_frequency.val h) fun _ => .rfl
  · refine not_tbl_congr (fun z hz => ?_) hn
    cases z with
    | tbl l => exact absurd rfl (hz l)
    | _ => rfl

theorem cargoNew_agree {x y : Toml} (h0 : x.surface = y.surface) (h : AgreeAt x y ["vcs".toList]) :
    SameOk (CargoNewConfig.de x) (CargoNewConfig.de y) := by
  rcases tables_of_surface h0 with ⟨l, l', rfl, rfl⟩ | hn
  · exact .bind (field_agree flat_vcs.val h) fun _ => .rfl
  · refine not_tbl_congr (fun z hz => ?_) hn
    cases z with
    | tbl l => exact absurd rfl (hz l)
    | _ => rfl

theorem http_agree {x y : Toml} (h0 : x.surface = y.surface)
    (h : ∀ k ∈ ["debug", "proxy", "timeout", "cainfo", "check-revoke", "low-speed-limit", "multiplexing", "user-agent"],
      AgreeAt x y [k.toList]) : SameOk (HttpConfig.de x) (HttpConfig.de y) := by
  rcases tables_of_surface h0 with ⟨l, l', rfl, rfl⟩ | hn
  · simp only [List.forall_mem_cons] at h
    obtain ⟨h1, h2, h3, h4, h5, h6, h7, h8, _⟩ := h
    refine .bind (field_agree flat_bool.val h1) fun _ => .bind (field_agree flat_str.val h2) fun _ => ?_
    refine .bind (field_agree flat_u32.val h3) fun _ => .bind (field_agree flat_str.val h4) fun _ => ?_
    refine .bind (field_agree flat_bool.val h5) fun _ => .bind (field_agree flat_u32.val h6) fun _ => ?_
    exact .bind (field_agree flat_bool.val h7) fun _ => .bind (field_agree flat_str.val h8) fun _ => .rfl
  · refine not_tbl_congr (fun z hz => ?_) hn
    cases z with
    | tbl l => exact absurd rfl (hz l)
    | _ => rfl

theorem net_agree {x y : Toml} (h0 : x.surface = y.surface)
    (h : ∀ k ∈ ["retry", "git-fetch-with-cli", "offline"], AgreeAt x y [k.toList]) : SameOk (NetConfig.de x) (NetConfig.de y) := by
  rcases tables_of_surface h0 with ⟨l, l', rfl, rfl⟩ | hn
  · simp only [List.forall_mem_cons] at h
    obtain ⟨h1, h2, h3, _⟩ := h
    refine .bind (field_agree flat_u32.val h1) fun _ => .bind (field_agree flat_bool.val h2) fun _ => ?_
    exact .bind (field_agree flat_bool.val h3) fun _ => .rfl
  · refine not_tbl_congr (fun z hz => ?_) hn
    cases z with
    | tbl l => exact absurd rfl (hz l)
    | _ => rfl

theorem registries_agree {x y : Toml} (h0 : x.surface = y.surface)
    (h : ∀ k ∈ ["index", "token", "protocol"], AgreeAt x y [k.toList]) :
    SameOk (RegistriesConfigValue.de x) (RegistriesConfigValue.de y) := by
  rcases tables_of_surface h0 with ⟨l, l', rfl, rfl⟩ | hn
  · simp only [List.forall_mem_cons] at h
    obtain ⟨h1, h2, h3, _⟩ := h
    refine .bind (field_agree flat_str.val h1) fun _ => .bind (field_agree flat_str.val h2) fun _ => ?_
    exact .bind (field_agree flat_protocol.val h3) fun _ => .rfl
  · refine not_tbl_congr (fun z hz => ?_) hn
    cases z with
    | tbl l => exact absurd rfl (hz l)
    | _ => rfl

theorem registry_agree {x y : Toml} (h0 : x.surface = y.surface)
    (h : ∀ k ∈ ["default", "token"], AgreeAt x y [k.toList]) : SameOk (RegistryConfig.de x) (RegistryConfig.de y) := by
  rcases tables_of_surface h0 with ⟨l, l', rfl, rfl⟩ | hn
  · simp only [List.forall_mem_cons] at h
    obtain ⟨h1, h2, _⟩ := h
    exact .bind (field_agree flat_str.val h1) fun _ => .bind (field_agree flat_str.val h2) fun _ => .rfl
  · refine not_tbl_congr (fun z hz => ?_) hn
    cases z with
    | tbl l => exact absurd rfl (hz l)
    | _ => rfl

theorem progress_agree {x y : Toml} (h0 : x.surface = y.surface)
    (h : ∀ k ∈ ["when", "width"], AgreeAt x y [k.toList]) : SameOk (TermProgress.de x) (TermProgress.de y) := by
  rcases tables_of_surface h0 with ⟨l, l', rfl, rfl⟩ | hn
  · simp only [List.forall_mem_cons] at h
    obtain ⟨h1, h2, _⟩ := h
    exact .bind (field_agree flat_when.val h1) fun _ => .bind (field_agree flat_u32.val h2) fun _ => .rfl
  · refine not_tbl_congr (fun z hz => ?_) hn
    cases z with
    | tbl l => exact absurd rfl (hz l)
    | _ => rfl

theorem term_agree {x y : Toml} (h0 : x.surface = y.surface)
    (h : ∀ k ∈ ["quiet", "verbose", "color", "progress"], AgreeAt x y [k.toList])
    (h' : ∀ k ∈ ["when", "width"], AgreeAt x y ["progress".toList, k.toList]) :
    SameOk (TermConfig.de x) (TermConfig.de y) := by
  rcases tables_of_surface h0 with ⟨l, l', rfl, rfl⟩ | hn
  · simp only [List.forall_mem_cons] at h
    obtain ⟨h1, h2, h3, h4, _⟩ := h
    refine .bind (field_agree flat_bool.val h1) fun _ => .bind (field_agree flat_bool.val h2) fun _ => ?_
    refine .bind (field_agree flat_color.val h3) fun _ => .bind (section_agree h4 fun u v hu hv huv => ?_) fun _ => .rfl
    exact progress_agree huv fun k hk => AgreeAt.below hu hv (h' k hk)
  · refine not_tbl_congr (fun z hz => ?_) hn
    cases z with
    | tbl l => exact absurd rfl (hz l)
    | _ => rfl

theorem env_agree {x y : Toml} (h0 : x.surface = y.surface)
    (h : ∀ k ∈ ["value", "force", "relative"], AgreeAt x y [k.toList]) :
    SameOk (EnvConfigValue.de x) (EnvConfigValue.de y) := by
  rcases tables_of_surface h0 with ⟨l, l', rfl, rfl⟩ | hn
  · simp only [List.forall_mem_cons] at h
    obtain ⟨h1, h2, h3, _⟩ := h
    refine .bind (field_agree flat_str.val h1) fun _ => .bind (field_agree flat_bool.val h2) fun _ => ?_
    exact .bind (field_agree flat_bool.val h3) fun _ => .rfl
  · cases x with
    | tbl l => exact absurd rfl (hn.1 l)
    | str s =>
      cases y with
      | str s' => cases h0; exact .rfl
      | _ => cases h0
    | _ =>
      cases y with
      | tbl l => exact absurd rfl (hn.2 l)
      | str s => cases h0
      | _ => exact .rfl

/-- Tables with arbitrary keys. -/
theorem map_agree {V : Type} {f : Toml → Res V} {x y : Toml} (h0 : x.surface = y.surface)
    (hdx : ∀ l, x = .tbl l → (l.map Prod.fst).Nodup) (hdy : ∀ l, y = .tbl l → (l.map Prod.fst).Nodup)
    (h : ∀ k, AgreeAt x y [k]) (hf : ∀ k u v, x.at [k] = some u → y.at [k] = some v → u.surface = v.surface → SameOk (f u) (f v)) :
    SameOk (deMap f x) (deMap f y) := by
  rcases tables_of_surface h0 with ⟨l, l', rfl, rfl⟩ | hn
  · have key : ∀ (l l' : List (Str × Toml)), (l.map Prod.fst).Nodup → (l'.map Prod.fst).Nodup → (∀ k, AgreeAt (.tbl l) (.tbl l') [k]) →
        (∀ k u v, BMap.get l k = some u → BMap.get l' k = some v → u.surface = v.surface → SameOk (f u) (f v)) →
        ∀ m, deMap f (.tbl l) = .ok m → deMap f (.tbl l') = .ok m := by
      intro l l' hl hl' h hf m hm
      obtain ⟨hs, m0, hm0, hrel⟩ := deMap_rel hm (fun _ e => by cases e; exact hl)
      cases hm0
      simp only [AgreeAt, Toml.at_tbl1] at h
      have hacc : Accepted (deMap f) (.tbl l') := by
        refine accepted_map hl' fun k v hv => ?_
        have h1 := h k
        have h2 := hrel k
        rw [hv] at h1
        cases hu : BMap.get l k with
        | none => rw [hu] at h1; cases h1
        | some u =>
          rw [hu] at h1 h2
          generalize BMap.get m k = b at h2
          cases h2 with
          | some h3 => exact ⟨_, (hf k u v hu hv (Option.some.inj h1) _).1 h3⟩
      obtain ⟨m', hm'⟩ := hacc
      obtain ⟨hs', m0, hm0, hrel'⟩ := deMap_rel hm' (fun _ e => by cases e; exact hl')
      cases hm0
      rw [hm']
      congr 1
      refine BMap.ext hs' hs fun k => ?_
      have h1 := h k
      have h2 := hrel k
      have h3 := hrel' k
      cases hu : BMap.get l k with
      | none =>
        cases hv : BMap.get l' k with
        | none =>
          rw [hu] at h2; rw [hv] at h3
          cases h2' : BMap.get m k with
          | none =>
            cases h3' : BMap.get m' k with
            | none => rfl
            | some _ => rw [h3'] at h3; cases h3
          | some _ => rw [h2'] at h2; cases h2
        | some v => rw [hu, hv] at h1; cases h1
      | some u =>
        cases hv : BMap.get l' k with
        | none => rw [hu, hv] at h1; cases h1
        | some v =>
          rw [hu, hv] at h1
          rw [hu] at h2; rw [hv] at h3
          cases h2' : BMap.get m k with
          | none => rw [h2'] at h2; cases h2
          | some a =>
            cases h3' : BMap.get m' k with
            | none => rw [h3'] at h3; cases h3
            | some b =>
              rw [h2'] at h2; rw [h3'] at h3
              cases h2 with
              | some e2 =>
                cases h3 with
                | some e3 =>
                  have := (hf k u v hu hv (Option.some.inj h1) _).1 e2
                  rw [e3] at this
                  exact congrArg some (Res.ok.inj this)
    have hx := hdx l rfl
    have hy := hdy l' rfl
    simp only [Toml.at_tbl1] at hf
    exact .of_imp (key l l' hx hy h hf)
      (key l' l hy hx (fun k => (h k).symm) fun k u v hu hv huv => (hf k v u hv hu huv.symm).symm)
  · refine not_tbl_congr (fun z hz => ?_) hn
    cases z with
    | tbl l => exact absurd rfl (hz l)
    | _ => rfl


theorem known_agree {t t' : Toml} (h : SameKnown t t') {p : List Str} (hp : KnownPath p) : AgreeAt t t' p := h p hp

theorem config_agree {t t' : Toml} (hd : t.DistinctKeys) (hd' : t'.DistinctKeys) (h : SameKnown t t') :
    SameOk (Config.de t) (Config.de t') := by
  have h0 : t.surface = t'.surface := Option.some.inj (h [] .document)
  have sec : ∀ {k : String}, [k.toList] ∈ sectionPaths → AgreeAt t t' [k.toList] := fun hk => h _ (.sections hk)
  have sub : ∀ {k k' : String}, KnownPath [k.toList, k'.toList] → AgreeAt t t' ([k.toList] ++ [k'.toList]) := fun hk => h _ hk
  have dis : ∀ {t x : Toml} {p : List Str}, t.DistinctKeys → t.at p = some x → ∀ l, x = .tbl l → (l.map Prod.fst).Nodup := by
    intro t x p ht hx l e
    subst e
    exact ht p l hx
  rcases tables_of_surface h0 with ⟨l, l', rfl, rfl⟩ | hn
  · refine .bind (section_agree (sec (by decide)) fun x y hx hy hxy => ?_) fun _ => ?_
    · refine map_agree hxy (dis hd hx) (dis hd' hy) (fun k => .below hx hy (h _ (.entry (.alias k)))) fun k u v _ _ huv => ?_
      rw [flat_stringList.eq huv]; exact .rfl
    refine .bind (section_agree (sec (by decide)) fun x y hx hy hxy => ?_) fun _ => ?_
    · refine build_agree hxy ?_
      simp only [List.forall_mem_cons]
      exact ⟨.below hx hy (sub (.scalar .buildJobs true)), .below hx hy (sub (.scalar .buildRustc true)),
        .below hx hy (sub (.scalar .buildRustcWrapper true)), .below hx hy (sub (.scalar .buildRustcWorkspaceWrapper true)),
        .below hx hy (sub (.scalar .buildRustdoc true)), .below hx hy (sub (.list .buildTarget)),
        .below hx hy (sub (.scalar .buildTargetDir true)), .below hx hy (sub (.list .buildRustflags)),
        .below hx hy (sub (.list .buildRustdocflags)), .below hx hy (sub (.scalar .buildIncremental true)),
        .below hx hy (sub (.scalar .buildDepInfoBasedir true)), nofun⟩
    refine .bind (section_agree (sec (by decide)) fun x y hx hy hxy => ?_) fun _ => ?_
    · exact doc_agree hxy (.below hx hy (sub (.command .docBrowser)))
    refine .bind (section_agree (sec (by decide)) fun x y hx hy hxy => ?_) fun _ => ?_
    · refine map_agree hxy (dis hd hx) (dis hd' hy) (fun k => .below hx hy (h _ (.entry (.env k)))) fun k u v hu hv huv => ?_
      refine env_agree huv ?_
      simp only [List.forall_mem_cons]
      exact ⟨.below hu hv (.below hx hy (h _ (.scalar (.envValue k) true))), .below hu hv (.below hx hy (h _ (.scalar (.envForce k) true))),
        .below hu hv (.below hx hy (h _ (.scalar (.envRelative k) true))), nofun⟩
    refine .bind (section_agree (sec (by decide)) fun x y hx hy hxy => ?_) fun _ => ?_
    · exact report_agree hxy (.below hx hy (sub (.scalar .futureIncompatReportFrequency true)))
    refine .bind (section_agree (sec (by decide)) fun x y hx hy hxy => ?_) fun _ => ?_
    · exact cargoNew_agree hxy (.below hx hy (sub (.scalar .cargoNewVcs true)))
    refine .bind (section_agree (sec (by decide)) fun x y hx hy hxy => ?_) fun _ => ?_
    · refine http_agree hxy ?_
      simp only [List.forall_mem_cons]
      exact ⟨.below hx hy (sub (.scalar .httpDebug true)), .below hx hy (sub (.scalar .httpProxy true)),
        .below hx hy (sub (.scalar .httpTimeout true)), .below hx hy (sub (.scalar .httpCainfo true)),
        .below hx hy (sub (.scalar .httpCheckRevoke true)), .below hx hy (sub (.scalar .httpLowSpeedLimit true)),
        .below hx hy (sub (.scalar .httpMultiplexing true)), .below hx hy (sub (.scalar .httpUserAgent true)), nofun⟩
    refine .bind (section_agree (sec (by decide)) fun x y hx hy hxy => ?_) fun _ => ?_
    · refine net_agree hxy ?_
      simp only [List.forall_mem_cons]
      exact ⟨.below hx hy (sub (.scalar .netRetry true)), .below hx hy (sub (.scalar .netGitFetchWithCli true)),
        .below hx hy (sub (.scalar .netOffline true)), nofun⟩
    refine .bind (section_agree (sec (by decide)) fun x y hx hy hxy => ?_) fun _ => ?_
    · refine map_agree hxy (dis hd hx) (dis hd' hy) (fun k => .below hx hy (h _ (.entry (.registries k)))) fun k u v hu hv huv => ?_
      refine registries_agree huv ?_
      simp only [List.forall_mem_cons]
      exact ⟨.below hu hv (.below hx hy (h _ (.scalar (.registriesIndex k) true))),
        .below hu hv (.below hx hy (h _ (.scalar (.registriesToken k) true))),
        .below hu hv (.below hx hy (h _ (.scalar (.registriesProtocol k) true))), nofun⟩
    refine .bind (section_agree (sec (by decide)) fun x y hx hy hxy => ?_) fun _ => ?_
    · refine registry_agree hxy ?_
      simp only [List.forall_mem_cons]
      exact ⟨.below hx hy (sub (.scalar .registryDefault true)), .below hx hy (sub (.scalar .registryToken true)), nofun⟩
    refine .bind (section_agree (sec (by decide)) fun x y hx hy hxy => ?_) fun _ => ?_
    · refine map_agree hxy (dis hd hx) (dis hd' hy) (fun k => .below hx hy (h _ (.entry (.target k)))) fun k u v hu hv huv => ?_
      refine target_agree huv ?_
      simp only [List.forall_mem_cons]
      exact ⟨.below hu hv (.below hx hy (h _ (.scalar (.targetLinker k) true))), .below hu hv (.below hx hy (h _ (.command (.targetRunner k)))),
        .below hu hv (.below hx hy (h _ (.list (.targetRustflags k)))), .below hu hv (.below hx hy (h _ (.list (.targetRustdocflags k)))), nofun⟩
    refine .bind (section_agree (sec (by decide)) fun x y hx hy hxy => ?_) fun _ => .rfl
    refine term_agree hxy ?_ ?_
    · simp only [List.forall_mem_cons]
      exact ⟨.below hx hy (sub (.scalar .termQuiet true)), .below hx hy (sub (.scalar .termVerbose true)),
        .below hx hy (sub (.scalar .termColor true)), .below hx hy (sub (.sections (by decide))), nofun⟩
    · simp only [List.forall_mem_cons]
      exact ⟨.below hx hy (h _ (.scalar .termProgressWhen true)), .below hx hy (h _ (.scalar .termProgressWidth true)), nofun⟩
  · refine not_tbl_congr (fun z hz => ?_) hn
    cases z with
    | tbl l => exact absurd rfl (hz l)
    | _ => rfl

/-! ### Reordering -/

theorem BMap.get_perm_nodup {V : Type} {l l' : List (Str × V)} (hp : l.Perm l') (hd : (l.map Prod.fst).Nodup) (k : Str) :
    BMap.get l k = BMap.get l' k := by
  have hd' : (l'.map Prod.fst).Nodup := (hp.map _).nodup_iff.1 hd
  cases h : BMap.get l k with
  | some x => exact (get_of_mem_nodup hd' (hp.mem_iff.1 (BMap.mem_of_get h))).symm
  | none =>
    cases h' : BMap.get l' k with
    | none => rfl
    | some x => rw [get_of_mem_nodup hd (hp.mem_iff.2 (BMap.mem_of_get h'))] at h; cases h

theorem DistinctKeys.entry {l : List (Str × Toml)} (hd : (Toml.tbl l).DistinctKeys) {k : Str} {x : Toml} (hx : BMap.get l k = some x) :
    x.DistinctKeys := by
  intro p l' h
  exact hd (k :: p) l' (by rw [Toml.at_tbl, hx]; exact h)

theorem DistinctKeys.nodup {l : List (Str × Toml)} (hd : (Toml.tbl l).DistinctKeys) : (l.map Prod.fst).Nodup := hd [] l rfl

theorem Reordered.agree {t t' : Toml} (h : Reordered t t') : t.DistinctKeys → t'.DistinctKeys ∧ ∀ p, AgreeAt t t' p := by
  induction h with
  | same t => exact fun hd => ⟨hd, fun _ => rfl⟩
  | @keys l l' hp =>
    intro hd
    have hn := DistinctKeys.nodup hd
    refine ⟨distinct_tbl ((hp.map _).nodup_iff.1 hn) fun e he =>
      DistinctKeys.entry hd (get_of_mem_nodup hn (hp.mem_iff.2 (show (e.1, e.2) ∈ l' from he))), fun p => ?_⟩
    cases p with
    | nil => rfl
    | cons k p => simp only [AgreeAt, Toml.at_tbl, BMap.get_perm_nodup hp hn k]
  | @inside l₁ l₂ k x y h ih =>
    intro hd
    have hn := DistinctKeys.nodup hd
    have hn' : ((l₁ ++ (k, y) :: l₂).map Prod.fst).Nodup := by simpa only [List.map_append, List.map_cons] using hn
    obtain ⟨hy, hag⟩ := ih (DistinctKeys.entry hd (get_of_mem_nodup hn (k := k) (x := x) (by simp)))
    have hkx := get_of_mem_nodup hn (k := k) (x := x) (by simp)
    have hky := get_of_mem_nodup hn' (k := k) (x := y) (by simp)
    refine ⟨distinct_tbl hn' fun e he => ?_, fun p => ?_⟩
    · obtain ⟨k', z⟩ := e
      simp only [List.mem_append, List.mem_cons, Prod.mk.injEq] at he
      rcases he with he | ⟨rfl, rfl⟩ | he
      · exact DistinctKeys.entry hd (get_of_mem_nodup hn (k := k') (by simp [he]))
      · exact hy
      · exact DistinctKeys.entry hd (get_of_mem_nodup hn (k := k') (by simp [he]))
    · cases p with
      | nil => rfl
      | cons k' p =>
        by_cases e : k' = k
        · subst e
          simp only [AgreeAt, Toml.at_tbl, hkx, hky, Option.bind_some]
          exact hag p
        · have : BMap.get (l₁ ++ (k, x) :: l₂) k' = BMap.get (l₁ ++ (k, y) :: l₂) k' := by
            simp only [BMap.get_append, BMap.get, if_neg (Ne.symm e)]
          simp only [AgreeAt, Toml.at_tbl, this]
  | trans _ _ ih ih' =>
    intro hd
    obtain ⟨h1, h2⟩ := ih hd
    obtain ⟨h3, h4⟩ := ih' h1
    exact ⟨h3, fun p => Eq.trans (h2 p) (h4 p)⟩

/-! ### Loading -/

theorem text_agree {toml : Str → Res Toml} (hd : ∀ s t, toml s = .ok t → t.DistinctKeys) {s s' : Str} (h : SameText toml s s') :
    SameOk (toml s >>= Config.de) (toml s' >>= Config.de) := by
  rcases h with ⟨t, t', h1, h2, h3⟩ | ⟨h1, h2⟩
  · rw [h1, h2]
    exact config_agree (hd _ _ h1) (hd _ _ h2) h3
  · intro c
    rw [Res.bind_eq_ok, Res.bind_eq_ok]
    exact ⟨fun ⟨t, h, _⟩ => absurd h (h1 t), fun ⟨t, h, _⟩ => absurd h (h2 t)⟩

theorem filesRead_agree {toml : Str → Res Toml} (hd : ∀ s t, toml s = .ok t → t.DistinctKeys) {fs fs' : Fs}
    (h : SameFiles toml fs fs') {paths : List Path} {raws : List (Path × Config)}
    (hr : FilesRead fs.read (fun s => toml s >>= Config.de) paths raws) :
    FilesRead fs'.read (fun s => toml s >>= Config.de) paths raws := by
  refine ⟨hr.1, fun p raw hm => ?_⟩
  obtain ⟨s, h1, h2⟩ := hr.2 p raw hm
  rcases h.read p with ⟨u, u', h3, h4, h5⟩ | ⟨h3, _⟩
  · rw [h1] at h3
    cases h3
    exact ⟨u', h4, (text_agree hd h5 raw).1 h2⟩
  · exact absurd h1 (h3 s)

theorem SameFiles.symm {toml : Str → Res Toml} {fs fs' : Fs} (h : SameFiles toml fs fs') : SameFiles toml fs' fs where
  ex p := (h.ex p).symm
  read p := by
    rcases h.read p with ⟨u, u', h3, h4, h5⟩ | ⟨h3, h4⟩
    · refine .inl ⟨u', u, h4, h3, ?_⟩
      rcases h5 with ⟨t, t', h6, h7, h8⟩ | ⟨h6, h7⟩
      · exact .inl ⟨t', t, h7, h6, fun p hp => (h8 p hp).symm⟩
      · exact .inr ⟨h7, h6⟩
    · exact .inr ⟨h4, h3⟩

theorem load_agree {toml : Str → Res Toml} (hd : ∀ s t, toml s = .ok t → t.DistinctKeys) {fs fs' : Fs}
    (h : SameFiles toml fs fs') (cwd : Path) (home : Option Path) :
    SameOk (loadConfig fs (fun s => toml s >>= Config.de) cwd home) (loadConfig fs' (fun s => toml s >>= Config.de) cwd home) := by
  have he : fs.ex = fs'.ex := funext h.ex
  intro c
  unfold loadConfig
  rw [he, loadPaths_ok, loadPaths_ok]
  exact ⟨fun ⟨r, h1, h2⟩ => ⟨r, filesRead_agree hd h h1, h2⟩, fun ⟨r, h1, h2⟩ => ⟨r, filesRead_agree hd h.symm h1, h2⟩⟩

theorem SameOk.toOption {α : Type} {x y : Res α} (h : SameOk x y) : x.toOption = y.toOption := by
  cases x with
  | ok a => rw [(h a).1 (Eq.refl _)]
  | err e =>
    cases y with
    | ok a => cases (h a).2 (Eq.refl _)
    | _ => exact Eq.refl _
  | panic =>
    cases y with
    | ok a => cases (h a).2 (Eq.refl _)
    | _ => exact Eq.refl _


theorem Extended.agree {p : List Str} {t t' : Toml} (h : Extended p t t') : t'.DistinctKeys →
    t.DistinctKeys ∧ ∀ q, KnownPath (p ++ q) → AgreeAt t t' q := by
  induction h with
  | @here p l₁ l₂ k x hk =>
    intro hd
    have hn := DistinctKeys.nodup hd
    have hsub : (l₁ ++ l₂).Sublist (l₁ ++ (k, x) :: l₂) := List.Sublist.append_left (List.sublist_cons_self ..) _
    refine ⟨distinct_tbl ((hsub.map _).nodup hn) fun e he => ?_, fun q hq => ?_⟩
    · exact DistinctKeys.entry hd (get_of_mem_nodup hn (hsub.subset (show (e.1, e.2) ∈ l₁ ++ l₂ from he)))
    · cases q with
      | nil => rfl
      | cons k' q =>
        have hne : k ≠ k' := by
          rintro rfl
          exact hk q hq
        have : BMap.get (l₁ ++ (k, x) :: l₂) k' = BMap.get (l₁ ++ l₂) k' := by
          simp only [BMap.get_append, BMap.get, if_neg hne]
        simp only [AgreeAt, Toml.at_tbl, this]
  | @inside p l₁ l₂ k x y h ih =>
    intro hd
    have hn' := DistinctKeys.nodup hd
    have hn : ((l₁ ++ (k, x) :: l₂).map Prod.fst).Nodup := by simpa only [List.map_append, List.map_cons] using hn'
    obtain ⟨hx, hag⟩ := ih (DistinctKeys.entry hd (get_of_mem_nodup hn' (k := k) (x := y) (by simp)))
    have hkx := get_of_mem_nodup hn (k := k) (x := x) (by simp)
    have hky := get_of_mem_nodup hn' (k := k) (x := y) (by simp)
    refine ⟨distinct_tbl hn fun e he => ?_, fun q hq => ?_⟩
    · obtain ⟨k', z⟩ := e
      simp only [List.mem_append, List.mem_cons, Prod.mk.injEq] at he
      rcases he with he | ⟨rfl, rfl⟩ | he
      · exact DistinctKeys.entry hd (get_of_mem_nodup hn' (k := k') (by simp [he]))
      · exact hx
      · exact DistinctKeys.entry hd (get_of_mem_nodup hn' (k := k') (by simp [he]))
    · cases q with
      | nil => rfl
      | cons k' q =>
        by_cases e : k' = k
        · subst e
          simp only [AgreeAt, Toml.at_tbl, hkx, hky, Option.bind_some]
          exact hag q (by rw [List.append_assoc]; exact hq)
        · have : BMap.get (l₁ ++ (k, x) :: l₂) k' = BMap.get (l₁ ++ (k, y) :: l₂) k' := by
            simp only [BMap.get_append, BMap.get, if_neg (Ne.symm e)]
          simp only [AgreeAt, Toml.at_tbl, this]

end CC
