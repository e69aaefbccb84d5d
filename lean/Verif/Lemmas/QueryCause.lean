import Verif.Spec.QueryCause
import Verif.Lemmas.Cause
import Verif.Lemmas.Tools
import Verif.Lemmas.TargetOutcome
/-
Lemmas for C69: what the errors of queries say.
-/
namespace CC

/-! ### messages about commands -/

theorem intercalate_args (p : Str) (args : List Str) :
    List.intercalate [' '] (p :: args) = p ++ (args.map fun a => ' ' :: a).flatten := by
  induction args generalizing p with
  | nil => simp [List.intercalate]
  | cons a args ih =>
    have : List.intercalate [' '] (p :: a :: args) = p ++ ' ' :: List.intercalate [' '] (a :: args) := by
      simp [List.intercalate]
    rw [this, ih]
    simp

theorem display_shown (c : Cmd) : c.display = c.shown := by
  unfold Cmd.display Cmd.shown Cmd.line quoted
  rw [intercalate_args]

theorem fill_execute (x : Str) : fill "could not execute process {} (never executed)".toList [x] =
    "could not execute process ".toList ++ x ++ " (never executed)".toList := by
  have h : "could not execute process {} (never executed)".toList =
    "could not execute process ".toList ++ '{' :: '}' :: " (never executed)".toList := by decide +kernel
  rw [h, fill_hole _ (by decide +kernel), fill_plain _ (by decide +kernel), List.append_assoc]

theorem fill_output (x : Str) : fill "failed to parse output from {}".toList [x] = "failed to parse output from ".toList ++ x := by
  have h : "failed to parse output from {}".toList = "failed to parse output from ".toList ++ '{' :: '}' :: [] := by decide +kernel
  rw [h, fill_hole _ (by decide +kernel), fill_nil, List.append_nil]

theorem fill_version (x y : Str) : fill "unexpected version output from {}: {}".toList [x, y] =
    "unexpected version output from ".toList ++ x ++ ": ".toList ++ y := by
  have h : "unexpected version output from {}: {}".toList =
    "unexpected version output from ".toList ++ '{' :: '}' :: (": ".toList ++ '{' :: '}' :: []) := by decide +kernel
  rw [h, fill_hole _ (by decide +kernel), fill_hole _ (by decide +kernel), fill_nil, List.append_nil, List.append_assoc,
    List.append_assoc]

theorem fill_status (x y a b : Str) : fill "process didn't exit successfully: {} ({}){}{}".toList [x, y, a, b] =
    "process didn't exit successfully: ".toList ++ x ++ " (".toList ++ y ++ ")".toList ++ a ++ b := by
  have h : "process didn't exit successfully: {} ({}){}{}".toList =
    "process didn't exit successfully: ".toList ++ '{' :: '}' :: (" (".toList ++ '{' :: '}' :: (")".toList ++ '{' :: '}' ::
      ([] ++ '{' :: '}' :: []))) := by decide +kernel
  rw [h, fill_hole _ (by decide +kernel), fill_hole _ (by decide +kernel), fill_hole _ (by decide +kernel), fill_hole _ (by simp),
    fill_nil, List.append_nil, List.nil_append]
  simp only [List.append_assoc]

theorem fill_triple (x : Str) : fill "'{}' is not valid target triple".toList [x] =
    '\'' :: (x ++ "' is not valid target triple".toList) := by
  have h : "'{}' is not valid target triple".toList = ['\''] ++ '{' :: '}' :: "' is not valid target triple".toList := by decide +kernel
  rw [h, fill_hole _ (by decide +kernel), fill_plain _ (by decide +kernel)]
  rfl

theorem trimStart_nil (s : Str) : (trimStart s).isEmpty = true ↔ Blank s := by
  unfold Blank trimStart
  induction s with
  | nil => simp
  | cons c s ih =>
    cases hc : isWhitespace c with
    | true => simpa [hc] using ih
    | false => simp [hc]

theorem outputPart_shown (title header : Str) (h : header = "\n--- ".toList ++ title ++ "\n".toList) (o : OsStr) :
    OutputShown title o (outputPart header o) := by
  cases o with
  | invalid b => exact .inr ⟨.inr ⟨b, rfl⟩, rfl⟩
  | unicode s =>
    show OutputShown title _ (if !(trimStart s).isEmpty then header ++ s else [])
    have hb := trimStart_nil s
    generalize (trimStart s).isEmpty = x at hb
    cases x with
    | true => exact .inr ⟨.inl ⟨s, rfl, hb.1 rfl⟩, rfl⟩
    | false => exact .inl ⟨s, rfl, (fun hs => by have := hb.2 hs; cases this), by rw [h]; rfl⟩

theorem procRead_blamed {c : Cmd} {o : ProcOut} {e : Err} (h : procRead c o = .err e) (sh : Shown) :
    CommandBlamed c o (e.display sh) e.source := by
  rcases o with what | (v | b) | ⟨status, out, err⟩
  · cases h
    rw [display_context, fill_execute, display_shown]
    exact .notStarted what
  · rw [procRead_unicode] at h; cases h
  · cases h
    rw [display_context, fill_output, display_shown]
    exact .notText b _ (by rintro (⟨_, h⟩ | ⟨_, h⟩) <;> cases h)
  · cases h
    rw [display_other, fill_status, display_shown]
    exact .failed status out err _ _ (outputPart_shown _ _ (by decide +kernel) out) (outputPart_shown _ _ (by decide +kernel) err)

theorem version_blamed {c : Cmd} {o : ProcOut} {out : Str} (h : procRead c o = .ok out) (sh : Shown) :
    VersionBlamed c o ((Err.unexpectedVersion c out).display sh) (Err.unexpectedVersion c out).source := by
  unfold Err.unexpectedVersion
  rw [display_other, fill_version, display_shown]
  exact .output out (printed_iff.2 h)

theorem ofOption_err {α : Type} {e e' : Err} {o : Option α} (h : Res.ofOption e o = .err e') : e' = e := by
  cases o with
  | none => cases h; rfl
  | some a => cases h

theorem rustcPart_blamed {w : World} {cm : Cmd} {o : ProcOut} {s : Cells} {e : Err} (h : (rustcPart w cm o s).1 = .err e) (sh : Shown) :
    VersionBlamed cm o (e.display sh) e.source := by
  unfold rustcPart at h
  cases hp : procRead cm o with
  | panic => rw [hp] at h; cases h
  | err e' => rw [hp] at h; cases h; exact .command _ _ (procRead_blamed hp sh)
  | ok vv =>
    rw [hp] at h
    dsimp only at h
    cases hv : rustcVersionOf cm vv with
    | panic => rw [hv] at h; cases h
    | err e' => rw [hv] at h; cases h; cases ofOption_err hv; exact version_blamed hp sh
    | ok v =>
      rw [hv] at h
      dsimp only at h
      have key : hostTripleOf cm vv = .err e → VersionBlamed cm o (e.display sh) e.source := by
        intro h; cases ofOption_err h; exact version_blamed hp sh
      cases hs : s.rustcVersion with
      | none => rw [hs] at h; exact key h
      | some x =>
        rw [hs] at h
        dsimp only at h
        cases hw : w.checks with
        | true => rw [hw] at h; cases h
        | false => rw [hw] at h; exact key h

/-! ### variables of a target -/

theorem var_err {env : Env} {n : Str} {e : Err} (h : env.var n = .err e) : (∃ bs, env.get n = some (.invalid bs)) ∧ NamesVar n e := by
  refine ⟨?_, var_names h⟩
  unfold Env.var at h
  split at h
  · cases h
  · rename_i v hv
    cases v with
    | unicode s => cases h
    | invalid b => exact ⟨b, hv⟩

theorem env_var_text {env : Env} {n : Str} {v : Val Str} (h : env.var n = .ok (some v)) : env.get n = some (.unicode v.val) := by
  unfold Env.var at h
  split at h
  · cases h
  · rename_i x hx
    cases x with
    | unicode s => cases h; exact hx
    | invalid b => cases h

variable {look : Str → Option OsStr} {docs : List (Path × Toml)} {checks : Bool} {t : TargetTriple}

theorem applyEnv_blamed {env : Env} {a : TargetAcc} {e : Err} (h : a.applyEnv env t.triple = .err e) (hl : Env.get env = look) (sh : Shown)
    (asked : Cmd → ProcOut → Prop) : TargetBlamed look docs checks t asked (e.display sh) e.source := by
  have key : ∀ what : String, what ∈ ["LINKER", "RUNNER", "RUSTFLAGS", "RUSTDOCFLAGS"] →
      env.var (targetVar t.triple what.toList) = .err e → TargetBlamed look docs checks t asked (e.display sh) e.source := by
    intro what hw hv
    rw [targetVar_eq] at hv
    obtain ⟨⟨bs, h1⟩, src, h2, h3, h4⟩ := var_err hv
    rw [h2, h4]
    exact .variable what bs src hw (by rw [← hl]; exact h1) h3
  unfold TargetAcc.applyEnv at h
  rcases Res.bind_eq_err.1 h with h | ⟨x1, _, h⟩
  · exact key "LINKER" (by decide) h
  rcases Res.bind_eq_err.1 h with h | ⟨x2, h2, h⟩
  · exact key "RUNNER" (by decide) h
  rcases Res.bind_eq_err.1 h with h | ⟨r, _, h⟩
  · unfold envRunner at h
    cases x2 with
    | none => cases h
    | some v =>
      dsimp only at h
      have hw := fromString_words v.val v.defn
      cases hr : PathAndArgs.fromString v.val v.defn with
      | some r => rw [hr] at h; cases h
      | none =>
        rw [hr] at h hw
        cases h
        have hn : wordsIn v.val = [] := by
          by_cases hn : wordsIn v.val = []
          · exact hn
          · rw [if_neg hn] at hw; cases hw
        have hd : fill "invalid length 0, expected at least one element".toList [] =
          "invalid length 0, expected at least one element".toList := fill_plain _ (by decide +kernel) _
        rw [display_context, hd]
        rw [targetVar_eq t.triple "RUNNER"] at h2
        exact .runner v.val (by rw [← hl]; exact env_var_text h2) (wordsIn_nil hn)
  rcases Res.bind_eq_err.1 h with h | ⟨x3, _, h⟩
  · exact key "RUSTFLAGS" (by decide) h
  rcases Res.bind_eq_err.1 h with h | ⟨x4, _, h⟩
  · exact key "RUSTDOCFLAGS" (by decide) h
  · cases h

/-! ### keys -/

theorem evalTables_err {checks : Bool} {c : CfgSet} {m : BMap TargetConfig} {a : TargetAcc} {e : Err}
    (h : evalTables checks c m a = .err e) : ∃ k v, (k, v) ∈ m ∧ isCfgKey k = true ∧ Expression.parse checks k = .err e := by
  induction m generalizing a with
  | nil => cases h
  | cons x m ih =>
    obtain ⟨k, v⟩ := x
    unfold evalTables at h
    split at h
    · obtain ⟨k', v', h1, h2⟩ := ih h
      exact ⟨k', v', by simp [h1], h2⟩
    · rename_i hk
      split at h
      · obtain ⟨k', v', h1, h2⟩ := ih h
        exact ⟨k', v', by simp [h1], h2⟩
      · rename_i hp
        cases h
        exact ⟨k, v, by simp, by simpa using hk, hp⟩
      · cases h

theorem parse_blamed {k : Str} {e : Err} (h : Expression.parse checks k = .err e) (hk : isCfgKey k = true) (hd : HasTable docs k) (sh : Shown)
    (asked : Cmd → ProcOut → Prop) : TargetBlamed look docs checks t asked (e.display sh) e.source := by
  obtain ⟨pe, blanks, mark, n, msg, rfl, h2, h3, -⟩ := C39_display checks k e h
  show TargetBlamed look docs checks t asked pe.display none
  rw [h3]
  exact .key k _ _ hk hd (fun x hx => by rw [h] at hx; cases hx) h2

theorem decides_etarget (cwd : Path) (tc : TargetConfig) :
    Decides ((∀ v, tc.linker = some v → WithPlace ProgramPlaced v) ∧ (∀ x, tc.runner = some x → WithPlace ProgramPlaced x.path) ∧ True)
      (ETarget.fromUnresolved cwd tc) := by
  unfold ETarget.fromUnresolved
  refine Decides.bind (decides_mapOpt _ fun v _ => decides_program v cwd) fun _ _ => ?_
  refine Decides.bind (decides_mapOpt _ fun v _ => decides_prog v cwd) fun _ _ => ?_
  exact decides_ok _

theorem Decides.not_err {α : Type} {P : Prop} {r : Res α} (h : Decides P r) (e : Err) : r ≠ .err e := by
  rcases h with ⟨_, a, h⟩ | ⟨_, h⟩ <;> rw [h] <;> intro h <;> cases h

theorem cfgTables_blamed {c : EConfig} {w : World} {s s' : Cells} {m : BMap TargetConfig} {a : TargetAcc} {e : Err}
    (hd : ∀ k v, (k, v) ∈ m → HasTable docs k)
    (h : cfgTables c.cx c.build t m a w s = (.err e, s')) (sh : Shown) :
    TargetBlamed look docs w.checks t (CfgAsked c t w s s') (e.display sh) e.source := by
  have heval : ∀ {cs : CfgSet}, evalTables w.checks cs m a = .err e →
      TargetBlamed look docs w.checks t (CfgAsked c t w s s') (e.display sh) e.source := by
    intro cs h
    obtain ⟨k, v, h5, h6, h7⟩ := evalTables_err h
    exact parse_blamed h7 h6 (hd _ _ h5) sh _
  cases hc : s.cfg.get t.cliTarget with
  | some cs =>
    rw [cfgTables_cached hc] at h
    exact heval (Prod.mk.inj h).1
  | none =>
  rw [cfgTables_eq] at h
  cases hf : firstCfgKey m with
  | none => rw [hf] at h; cases h
  | some k1 =>
    obtain ⟨hk1, v1, hm1⟩ := firstCfgKey_some hf
    rw [hf] at h
    dsimp only at h
    cases hp : Expression.parse w.checks k1 with
    | panic => rw [hp] at h; cases h
    | err e' =>
      rw [hp] at h
      cases h
      exact parse_blamed hp hk1 (hd _ _ hm1) sh _
    | ok x =>
      obtain ⟨r, n, h1, h2⟩ := cfgOf_fresh (cx := c.cx) (b := c.build) (w := w) hc
      rw [hp, h2] at h
      dsimp only at h
      cases ha : cfgAnswer (cfgCmd r t.cliTarget) (w.run n (cfgCmd r t.cliTarget)) with
      | panic => rw [ha] at h; cases h
      | err e' =>
        rw [ha] at h
        cases h
        refine .compiler _ _ _ _ ⟨r, _, h1, rfl, rfl, rfl⟩ ?_
        unfold cfgAnswer at ha
        rcases Res.bind_eq_err.1 ha with ha | ⟨out, _, ha⟩
        · exact procRead_blamed ha sh
        · obtain ⟨cs, hcs⟩ := C42_no_panic out
          rw [hcs] at ha; cases ha
      | ok cs =>
        rw [ha] at h
        dsimp only at h
        exact heval (Prod.mk.inj h).1

end CC
