import Verif.Lemmas.Layout
import Verif.Props.Serde
import Verif.Props.EndToEnd
/-
C77: the layout of a config file does not matter.

`toml` stands for the TOML parser; all that is assumed of it is that the tables of the documents it returns have distinct keys.
-/
namespace CC

/-- Two documents with the same at all places the library knows (the sections, the entries of the tables with arbitrary keys, and the
settings) are read as the same config, or both are rejected. -/
theorem C77_settings {t t' : Toml} (hd : t.DistinctKeys) (hd' : t'.DistinctKeys) (h : SameKnown t t') :
    (Config.de t).toOption = (Config.de t').toOption := (config_agree hd hd' h).toOption

/-- The order of the keys has no influence, in whatever tables it is changed. -/
theorem C77_order {t t' : Toml} (hd : t.DistinctKeys) (h : Reordered t t') : (Config.de t).toOption = (Config.de t').toOption :=
  C77_settings hd (h.agree hd).1 fun p _ => (h.agree hd).2 p

/-- A key the library does not know has no influence, wherever it is and whatever its value is. -/
theorem C77_unknown {t t' : Toml} (hd : t'.DistinctKeys) (h : Extended [] t t') : (Config.de t).toOption = (Config.de t').toOption :=
  C77_settings (h.agree hd).1 hd fun p hp => (h.agree hd).2 p hp

/-- If config files are replaced by ones that say the same, `Config::load_with_options` of `de` gives the same config, or fails in both
cases. -/
theorem C77_load {toml : Str → Res Toml} (hd : ∀ s t, toml s = .ok t → t.DistinctKeys) {fs fs' : Fs} (h : SameFiles toml fs fs')
    (cwd : Path) (home : Option Path) :
    (loadConfig fs (fun s => toml s >>= Config.de) cwd home).toOption =
      (loadConfig fs' (fun s => toml s >>= Config.de) cwd home).toOption := (load_agree hd h cwd home).toOption

/-- The same for `easy::Config::load_with_options`, with all that can be asked of the config later. -/
theorem C77_load_easy {toml : Str → Res Toml} (hd : ∀ s t, toml s = .ok t → t.DistinctKeys) {fs fs' : Fs} (h : SameFiles toml fs fs')
    (p : ProcEnv) (cwd : Path) (o : Options) :
    (EConfig.loadWithOptions p fs (fun s => toml s >>= Config.de) cwd o).toOption =
      (EConfig.loadWithOptions p fs' (fun s => toml s >>= Config.de) cwd o).toOption :=
  ((load_agree hd h _ _).bind fun _ => .rfl).toOption

/-! ### Cases -/

/-- `sampleDoc` in another order. -/
def shuffledDoc : Toml := .tbl [
  ("term".toList, .tbl [("progress".toList, .tbl [("width".toList, .int 80), ("when".toList, .str "never".toList)])]),
  ("alias".toList, .tbl [("b".toList, .str "build --all".toList), ("a".toList, .arr [.str "x y".toList])]),
  ("build".toList, .tbl [("jobs".toList, .int (-1)), ("rustflags".toList, .str "-g  -O".toList), ("unknown".toList, .other)]),
  ("env".toList, .tbl [("E".toList, .tbl [("value".toList, .str "v".toList), ("force".toList, .bool true)])])]

theorem shuffled : Reordered sampleDoc shuffledDoc := by
  unfold sampleDoc shuffledDoc
  refine .trans (.keys (List.perm_append_comm (l₁ := [_, _, _]) (l₂ := [_]))) ?_
  exact .inside [] [_, _, _] "term".toList (.inside [] [] "progress".toList (.keys (List.Perm.swap ..)))

theorem sampleDoc_distinct : sampleDoc.DistinctKeys := by
  unfold sampleDoc
  refine distinct_tbl (by decide) fun x hx => ?_
  simp only [List.mem_cons, List.not_mem_nil, or_false] at hx
  rcases hx with rfl | rfl | rfl | rfl
  · refine distinct_tbl (by decide) fun x hx => ?_
    simp only [List.mem_cons, List.not_mem_nil, or_false] at hx
    rcases hx with rfl | rfl <;> exact distinct_leaf rfl
  · refine distinct_tbl (by decide) fun x hx => ?_
    simp only [List.mem_cons, List.not_mem_nil, or_false] at hx
    rcases hx with rfl | rfl | rfl <;> exact distinct_leaf rfl
  · refine distinct_tbl (by decide) fun x hx => ?_
    simp only [List.mem_cons, List.not_mem_nil, or_false] at hx
    subst hx
    refine distinct_tbl (by decide) fun x hx => ?_
    simp only [List.mem_cons, List.not_mem_nil, or_false] at hx
    rcases hx with rfl | rfl <;> exact distinct_leaf rfl
  · refine distinct_tbl (by decide) fun x hx => ?_
    simp only [List.mem_cons, List.not_mem_nil, or_false] at hx
    subst hx
    refine distinct_tbl (by decide) fun x hx => ?_
    simp only [List.mem_cons, List.not_mem_nil, or_false] at hx
    rcases hx with rfl | rfl <;> exact distinct_leaf rfl

example : (Config.de shuffledDoc).toOption = (Config.de sampleDoc).toOption ∧ (Config.de sampleDoc).isOk = true :=
  ⟨(C77_order sampleDoc_distinct shuffled).symm, rfl⟩

/-- There is no setting `build.unknown`, and nothing below it. -/
theorem unknown_build (q : List Str) : ¬ KnownPath (["build".toList] ++ "unknown".toList :: q) := by
  intro h
  generalize e : ["build".toList] ++ "unknown".toList :: q = p at h
  have e1 : p.head? = some "build".toList := by rw [← e]; rfl
  have e2 : p.tail.head? = some "unknown".toList := by rw [← e]; rfl
  clear e
  cases h with
  | document => cases e1
  | sections h =>
    have : ∀ p ∈ sectionPaths, p.tail.head? ≠ some "unknown".toList := by decide
    exact this _ h e2
  | entry k => cases k <;> simp [TableKey.path] at e1
  | scalar k b => cases b <;> cases k <;> simp [ScalarKey.path] at e1 e2
  | list k => cases k <;> simp [ListKey.path] at e1 e2
  | command k => cases k <;> simp [ProgKey.path] at e1

/-- `sampleDoc` without the unknown key. -/
def plainDoc : Toml := .tbl [("alias".toList, .tbl [("b".toList, .str "build --all".toList), ("a".toList, .arr [.str "x y".toList])]),
  ("build".toList, .tbl [("jobs".toList, .int (-1)), ("rustflags".toList, .str "-g  -O".toList)]),
  ("env".toList, .tbl [("E".toList, .tbl [("value".toList, .str "v".toList), ("force".toList, .bool true)])]),
  ("term".toList, .tbl [("progress".toList, .tbl [("when".toList, .str "never".toList), ("width".toList, .int 80)])])]

theorem plain_extended : Extended [] plainDoc sampleDoc :=
  .inside [_] [_, _] "build".toList (.here [_, _] [] "unknown".toList .other unknown_build)

example : (Config.de plainDoc).toOption = (Config.de sampleDoc).toOption := C77_unknown sampleDoc_distinct plain_extended

/-- Two texts of a file, with the keys in different order. -/
def twoTexts (s : Str) : Res Toml := if s = "1".toList then .ok sampleDoc else if s = "2".toList then .ok shuffledDoc else deErr

def fsWith (s : Str) : Fs where
  ex p := p == "/w/.cargo/config.toml".toList
  read p := if p = "/w/.cargo/config.toml".toList then .ok s else deErr

example : (EConfig.loadWithOptions {} (fsWith "1".toList) (fun s => twoTexts s >>= Config.de) "/w/p".toList {}).toOption =
    (EConfig.loadWithOptions {} (fsWith "2".toList) (fun s => twoTexts s >>= Config.de) "/w/p".toList {}).toOption := by
  have hs := shuffled.agree sampleDoc_distinct
  refine C77_load_easy (fs := fsWith "1".toList) (fs' := fsWith "2".toList) ?_ ⟨fun _ => rfl, fun p => ?_⟩ _ _ _
  · intro s t h
    unfold twoTexts at h
    split at h
    · cases h; exact sampleDoc_distinct
    · split at h
      · cases h; exact hs.1
      · cases h
  · by_cases hp : p = "/w/.cargo/config.toml".toList
    · refine .inl ⟨"1".toList, "2".toList, if_pos hp, if_pos hp, .inl ⟨sampleDoc, shuffledDoc, rfl, rfl, fun p _ => hs.2 p⟩⟩
    · exact .inr ⟨fun s h => (by simp only [fsWith, if_neg hp] at h; cases h), fun s h => (by simp only [fsWith, if_neg hp] at h; cases h)⟩

example : ((EConfig.loadWithOptions {} (fsWith "1".toList) (fun s => twoTexts s >>= Config.de) "/w/p".toList {}).toOption.map
    fun x => x.1.term.progress.width) = some (some 80) := by decide +kernel

/-- The same documents, through what is found at the known places. -/
example : (Config.de sampleDoc).toOption = (Config.de shuffledDoc).toOption :=
  C77_settings sampleDoc_distinct (shuffled.agree sampleDoc_distinct).1 fun p _ => (shuffled.agree sampleDoc_distinct).2 p

end CC
