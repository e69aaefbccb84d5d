import Verif.Spec.CfgCompose
import Verif.Props.CfgExpr
import Verif.Props.Matching
/-
Cfg keys composed of others: C99.
-/
namespace CC

/-! ### lemmas -/

theorem ReadsAs.pad {w s : Str} {ts : List Token} (hw : ∀ c ∈ w, isWhitespace c = true) (h : ReadsAs s ts) : ReadsAs (w ++ s) ts := by
  cases h with
  | nil v hv => exact .nil _ fun c hc => (List.mem_append.1 hc).elim (hw c) (hv c)
  | cons v t rest ts hv h1 h2 h3 =>
    have := ReadsAs.cons (w ++ v) t rest ts (fun c hc => (List.mem_append.1 hc).elim (hw c) (hv c)) h1 h2 h3
    simpa only [List.append_assoc] using this

theorem ReadsAs.append {a b : Str} {ts us : List Token} (h : ReadsAs a ts) (h' : ReadsAs b us)
    (hb : ∀ c, b.head? = some c → ¬ IdentRest c) : ReadsAs (a ++ b) (ts ++ us) := by
  induction h with
  | nil w hw => exact h'.pad hw
  | cons w t rest ts hw h1 h2 _ ih =>
    have := ReadsAs.cons w t (rest ++ b) (ts ++ us) hw h1 (fun hx c hc => ?_) ih
    · simpa only [List.append_assoc, List.cons_append] using this
    · cases rest with
      | nil => exact hb c hc
      | cons x rest => exact h2 hx c hc

theorem cfgKey_inner {p : Str} {t : CfgTree} (h : IsCfg (cfgKey p) t) : ∃ ts, ReadsAs p ts ∧ Item false t ts ∧ t.AllFns NotUnary := by
  obtain ⟨inner, ts, hi, h⟩ := h
  rcases hi with hi | ⟨_, hi⟩
  · unfold cfgKey at hi
    have := List.append_cancel_left (List.append_cancel_right hi)
    subst this
    exact ⟨ts, h⟩
  · exact absurd ⟨p, rfl⟩ hi

theorem readsAs_close : ReadsAs ")".toList [.closeParen] :=
  .cons [] .closeParen [] [] (by simp) trivial (fun h => h.elim) (.nil [] (by simp))

theorem operands_body {ps : List Str} {ts : List CfgTree} (h : ListRel (fun p t => IsCfg (cfgKey p) t) ps ts) :
    ∃ q, ReadsAs (operands ps ++ ")".toList) (q ++ [.closeParen]) ∧
      ∀ args e p, Body false args e p → e ≠ .item → ∃ e', Body false (args ++ ts) e' (p ++ q) := by
  have hc : ∀ c, (")".toList : Str).head? = some c → ¬ IdentRest c := by
    intro c hc
    cases hc
    unfold IdentRest IdentStart
    decide
  induction h with
  | nil => exact ⟨[], readsAs_close, fun args e p hb _ => ⟨e, by simpa using hb⟩⟩
  | @cons p t ps ts hp hr ih =>
    obtain ⟨qp, r1, r2, _⟩ := cfgKey_inner hp
    obtain ⟨q, r3, r4⟩ := ih
    cases hr with
    | nil =>
      exact ⟨qp, r1.append readsAs_close hc, fun args e p hb he => ⟨.item, .item args e p t qp hb he r2⟩⟩
    | @cons p' t' ps ts hp' hr =>
      refine ⟨qp ++ .comma :: q, ?_, fun args e p hb he => ?_⟩
      · have r5 : ReadsAs (", ".toList ++ (operands (p' :: ps) ++ ")".toList)) (.comma :: (q ++ [.closeParen])) :=
          .cons [] .comma (' ' :: (operands (p' :: ps) ++ ")".toList)) _ (by simp) trivial (fun h => h.elim)
            (r3.pad (w := [' ']) (by decide))
        have r6 := r1.append r5 (fun c hc => by
          cases hc
          unfold IdentRest IdentStart
          decide)
        simpa only [operands, List.append_assoc, List.cons_append] using r6
      · obtain ⟨e', hb'⟩ := r4 (args ++ [t]) .comma (p ++ qp ++ [.comma]) (.comma _ .item _ (.item args e p t qp hb he r2) (.inl rfl))
          (by intro h; cases h)
        exact ⟨e', by simpa only [List.append_assoc, List.cons_append, List.nil_append] using hb'⟩

theorem call_isCfg (f : FnName) {ps : List Str} {ts : List CfgTree} (h : ListRel (fun p t => IsCfg (cfgKey p) t) ps ts)
    (hf : f = .not → ps.length = 1) : IsCfg (cfgKey (f.call ps)) (.fn f ts) := by
  obtain ⟨q, r1, r2⟩ := operands_body h
  obtain ⟨e, hb⟩ := r2 [] .start [] .start (by intro h; cases h)
  refine ⟨f.call ps, f.token :: .openParen :: (q ++ [.closeParen]), .inl rfl, ?_, .fn f ts e q hb, ?_, ?_⟩
  · have r3 : ReadsAs ("(".toList ++ (operands ps ++ ")".toList)) (.openParen :: (q ++ [.closeParen])) :=
      .cons [] .openParen _ _ (by simp) trivial (fun h => h.elim) r1
    have r4 := ReadsAs.cons [] f.token _ _ (by simp) (by cases f <;> trivial) (fun _ c hc => by
      cases hc
      unfold IdentRest IdentStart
      decide) r3
    simpa only [FnName.call, List.nil_append, List.append_assoc] using r4
  · intro he
    have : ps.length = ts.length := by
      clear r1 r2 hb hf
      induction h with
      | nil => rfl
      | cons _ _ ih => simp [ih]
    rw [← this]
    exact hf he
  · clear r1 r2 hb hf
    induction h with
    | nil => trivial
    | cons hp _ ih =>
      obtain ⟨_, _, _, h⟩ := cfgKey_inner hp
      exact ⟨h, ih⟩

theorem keyValue_tree {checks : Bool} {cs : CfgSet} {p : Str} {t : CfgTree} (h : IsCfg (cfgKey p) t) (hn : t.AllFns Narrow) (b : Bool) :
    KeyValue checks cs (cfgKey p) b ↔ t.value cs.holds = b := by
  obtain ⟨e, he⟩ := C35_accepts checks _ t h fun _ => hn
  have hv := C36_value checks _ t e h hn he cs.holds
  constructor
  · rintro ⟨e', he', h1⟩
    rw [he] at he'
    cases he'
    rw [hv] at h1
    exact Option.some.inj h1
  · rintro rfl
    exact ⟨e, he, hv⟩

/-- The trees of the operands. -/
theorem exprs_trees {checks : Bool} {cs : CfgSet} {ps : List Str} {bs : List Bool} (hp : ∀ p ∈ ps, IsExpr p)
    (hb : ListRel (fun p b => KeyValue checks cs (cfgKey p) b) ps bs) :
    ∃ ts, ListRel (fun p t => IsCfg (cfgKey p) t) ps ts ∧ CfgTree.AllFnsList Narrow ts ∧ ts.length = ps.length ∧
      CfgTree.allValues cs.holds ts = bs.all id ∧ CfgTree.anyValue cs.holds ts = bs.any id := by
  induction hb with
  | nil => exact ⟨[], .nil, trivial, rfl, rfl, rfl⟩
  | @cons p b ps bs h _ ih =>
    obtain ⟨ts, h1, h2, h3, h4, h5⟩ := ih fun p hm => hp p (List.mem_cons_of_mem _ hm)
    obtain ⟨t, g1, g2⟩ := hp p List.mem_cons_self
    have hv := (keyValue_tree g1 g2 b).1 h
    exact ⟨t :: ts, .cons g1 h1, ⟨g2, h2⟩, by simp [h3], by simp [CfgTree.allValues, h4, hv], by simp [CfgTree.anyValue, h5, hv]⟩

theorem narrow_short {f : FnName} {ts : List CfgTree} (h : ts.length < 256) : Narrow f ts :=
  Nat.lt_of_le_of_lt List.countP_le_length h

/-! ### the properties -/

variable {checks : Bool} {cs : CfgSet}

/-- C99: `cfg(all(..))` is true exactly if the keys of all operands are. -/
theorem C99_all {ps : List Str} {bs : List Bool} (hp : ∀ p ∈ ps, IsExpr p) (hl : ps.length < 256)
    (hb : ListRel (fun p b => KeyValue checks cs (cfgKey p) b) ps bs) :
    IsExpr (FnName.all.call ps) ∧ KeyValue checks cs (cfgKey (FnName.all.call ps)) (bs.all id) := by
  obtain ⟨ts, h1, h2, h3, h4, _⟩ := exprs_trees hp hb
  have hc := call_isCfg .all h1 (by intro h; cases h)
  have hn : (CfgTree.fn .all ts).AllFns Narrow := ⟨narrow_short (h3 ▸ hl), h2⟩
  exact ⟨⟨_, hc, hn⟩, (keyValue_tree hc hn _).2 h4⟩

/-- C99: `cfg(any(..))` is true exactly if the key of one of the operands is. -/
theorem C99_any {ps : List Str} {bs : List Bool} (hp : ∀ p ∈ ps, IsExpr p) (hl : ps.length < 256)
    (hb : ListRel (fun p b => KeyValue checks cs (cfgKey p) b) ps bs) :
    IsExpr (FnName.any.call ps) ∧ KeyValue checks cs (cfgKey (FnName.any.call ps)) (bs.any id) := by
  obtain ⟨ts, h1, h2, h3, _, h5⟩ := exprs_trees hp hb
  have hc := call_isCfg .any h1 (by intro h; cases h)
  have hn : (CfgTree.fn .any ts).AllFns Narrow := ⟨narrow_short (h3 ▸ hl), h2⟩
  exact ⟨⟨_, hc, hn⟩, (keyValue_tree hc hn _).2 h5⟩

/-- C99: `cfg(not(..))` is true exactly if the key of the operand is false. -/
theorem C99_not {p : Str} (hp : IsExpr p) (b : Bool) :
    IsExpr (FnName.not.call [p]) ∧ (KeyValue checks cs (cfgKey (FnName.not.call [p])) (!b) ↔ KeyValue checks cs (cfgKey p) b) := by
  obtain ⟨t, g1, g2⟩ := hp
  have hc := call_isCfg .not (.cons g1 .nil) (fun _ => rfl)
  have hn : (CfgTree.fn .not [t]).AllFns Narrow := ⟨narrow_short (by simp), g2, trivial⟩
  refine ⟨⟨_, hc, hn⟩, ?_⟩
  rw [keyValue_tree hc hn, keyValue_tree g1 g2]
  simp [CfgTree.value, CfgTree.allValues]

variable {p : ProcEnv} {fs : Fs} {toml : Str → Res Toml} {cwd : Path} {o : Options} {c : EConfig} {s s1 : Cells}
  {look : Str → Option OsStr} {home : Option Path} {docs : List (Path × Toml)} {w : World} {t : TargetTriple}

/-- C99: of the tables `cfg(P)` and `cfg(not(P))` every target that can be queried gets exactly one. -/
theorem C99_one_table (h : Loads p fs toml cwd o look home docs c s) {x : Str} (hx : IsExpr x) (h1 : HasTable docs (cfgKey x))
    (h2 : HasTable docs (cfgKey (FnName.not.call [x]))) {e : ETarget} (hq : c.target t w s = (.ok e, s1)) :
    ∃ ks, CfgTables w.checks docs (s1.cfg.get t.cliTarget) ks ∧ (cfgKey x ∈ ks ↔ cfgKey (FnName.not.call [x]) ∉ ks) := by
  obtain ⟨ks, hk, _⟩ := (C63_tables h hq).2.1
  have k1 : ∀ y, isCfgKey (cfgKey y) = true := fun y => rfl
  refine ⟨ks, hk, ?_⟩
  obtain ⟨cs, b, hc, hb⟩ := hk.accepted _ (k1 x) h1
  rw [hk.listed, hk.listed]
  have hb' := (C99_not (checks := w.checks) (cs := cs) hx b).2.2 hb
  cases b with
  | true =>
    refine ⟨fun _ => ?_, fun _ => ⟨k1 x, h1, cs, hc, hb⟩⟩
    rintro ⟨_, _, cs', e1, e2⟩
    rw [hc] at e1
    cases e1
    cases keyValue_unique e2 hb'
  | false =>
    refine ⟨?_, fun hn => absurd ⟨k1 _, h2, cs, hc, hb'⟩ hn⟩
    rintro ⟨_, _, cs', e1, e2⟩
    rw [hc] at e1
    cases e1
    cases keyValue_unique e2 hb

/-! ### samples -/

section sample

theorem sample_unix : IsExpr "unix".toList := by
  refine ⟨.pred (.flag "unix".toList), ⟨"unix".toList, [.key "unix".toList], .inl rfl, ?_, .flag _, trivial⟩, trivial⟩
  exact .cons [] (.key "unix".toList) [] [] (by simp)
    ⟨⟨'u', "nix".toList, rfl, by unfold IdentStart; decide, by unfold IdentRest IdentStart; decide⟩, by decide, by decide, by decide⟩
    (fun _ c hc => by cases hc) (.nil [] (by simp))

/-- The keys are as they are usually written. -/
example : cfgKey (FnName.all.call ["unix".toList, FnName.not.call ["test".toList]]) = "cfg(all(unix, not(test)))".toList := by
  decide +kernel

/-- `C99_not`, `C99_all` and `C99_any` apply. -/
example : IsExpr "any(not(unix), all(unix, unix))".toList ∧
    KeyValue true matchingCfg "cfg(any(not(unix), all(unix, unix)))".toList true := by
  have h0 : KeyValue true matchingCfg (cfgKey "unix".toList) true := ⟨_, rfl, by decide +kernel⟩
  obtain ⟨h1, h2⟩ := C99_not (checks := true) (cs := matchingCfg) sample_unix true
  obtain ⟨h3, h4⟩ := C99_all (checks := true) (cs := matchingCfg) (ps := ["unix".toList, "unix".toList])
    (by intro p hp; simp only [List.mem_cons, List.not_mem_nil, or_false, or_self] at hp; subst hp; exact sample_unix) (by decide)
    (.cons h0 (.cons h0 .nil))
  exact C99_any (ps := [FnName.not.call ["unix".toList], FnName.all.call ["unix".toList, "unix".toList]])
    (by
      intro p hp
      simp only [List.mem_cons, List.not_mem_nil, or_false] at hp
      rcases hp with rfl | rfl
      · exact h1
      · exact h3) (by decide) (.cons (h2.2 h0) (.cons h4 .nil))

/-- The condition of `C99_not` is needed: `cfg(all(unix), unix)` is accepted although it is not an expression of the grammar, and
its negation is rejected. -/
example : KeyValue true matchingCfg (cfgKey "all(unix), unix".toList) true ∧
    ¬ ∃ b, KeyValue true matchingCfg (cfgKey (FnName.not.call ["all(unix), unix".toList])) b := by
  refine ⟨⟨_, rfl, by decide +kernel⟩, ?_⟩
  rintro ⟨b, e, he, _⟩
  have h : (Expression.parse true (cfgKey (FnName.not.call ["all(unix), unix".toList]))).isOk = false := by decide +kernel
  rw [he] at h
  cases h

def composeDoc : Toml := .tbl [("target".toList, .tbl [
  ("cfg(not(unix))".toList, .tbl [("rustflags".toList, .arr [.str "-b".toList])]),
  ("cfg(unix)".toList, .tbl [("rustflags".toList, .arr [.str "-a".toList])])])]

/-- The hypotheses of `C99_one_table` are met. -/
example : ∃ look c s e s1 ks, Loads sampleProc sampleFs (matchingToml composeDoc) "/w/p".toList { cargoHome := some none } look none
      [("/w/p/.cargo/config".toList, composeDoc), ("/w/.cargo/config.toml".toList, .tbl [])] c s ∧
    c.target sampleTriple sampleWorld s = (.ok e, s1) ∧
    CfgTables sampleWorld.checks [("/w/p/.cargo/config".toList, composeDoc), ("/w/.cargo/config.toml".toList, .tbl [])]
      (s1.cfg.get sampleTriple.cliTarget) ks ∧ ("cfg(unix)".toList ∈ ks ↔ "cfg(not(unix))".toList ∉ ks) := by
  obtain ⟨look, c, s, h⟩ := sampleMatching_load (near := composeDoc)
    (sampleMatching_tables (by decide) fun x hx => by
      simp only [List.mem_cons, List.not_mem_nil, or_false] at hx
      rcases hx with rfl | rfl <;> exact ⟨_, rfl⟩) (by decide +kernel)
  obtain ⟨e, s1, _, hq, _, _⟩ := sampleMatching_query h (by decide +kernel)
  obtain ⟨ks, hk, hm⟩ := C99_one_table h sample_unix ⟨_, _, List.mem_cons_self, fun e => (by cases e)⟩
    ⟨_, _, List.mem_cons_self, fun e => (by cases e)⟩ hq
  exact ⟨look, c, s, e, s1, ks, h, hq, hk, hm⟩

end sample

end CC
