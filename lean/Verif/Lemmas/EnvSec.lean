import Verif.Model.Env
import Verif.Spec.Env
import Verif.Lemmas.Merge
import Verif.Lemmas.Lists
/-
Helper lemmas for `apply_env`: one law per kind of setting, then per section.
-/
namespace CC

theorem readEnv_cons {α : Type} (env : Str → Option OsStr) (s : Source α) (l : List (Source α)) :
    readEnv env (s :: l) = match readEnv env [s] with
      | none => readEnv env l
      | some x => some x := by
  obtain ⟨n, rd⟩ := s
  simp only [readEnv]
  cases env n with
  | none => rfl
  | some v => cases v <;> rfl

/-- A field is set as `srcs` say: `mk` is the new content as seen by `view`. -/
def FieldLaw {δ κ φ : Type} (env : Env) (srcs : List (Source δ)) (mk : Str → δ → κ) (view : φ → κ) (old : φ)
    (r : Res φ) : Prop :=
  match readEnv env.get srcs with
  | none => r = .ok old
  | some none => ∃ e, r = .err e
  | some (some (n, a)) => ∃ new, r = .ok new ∧ view new = mk n a

section
variable {δ κ φ : Type} {env : Env} {srcs : List (Source δ)} {mk : Str → δ → κ} {view : φ → κ} {old : φ} {r : Res φ}

theorem FieldLaw.ne_panic (h : FieldLaw env srcs mk view old r) : r ≠ .panic := by
  unfold FieldLaw at h
  split at h
  · rw [h]; simp
  · obtain ⟨e, h⟩ := h; rw [h]; simp
  · obtain ⟨e, h, -⟩ := h; rw [h]; simp

theorem FieldLaw.fine (h : FieldLaw env srcs mk view old r) {x : φ} (hx : r = .ok x) :
    readEnv env.get srcs ≠ some none := by
  intro hn
  rw [FieldLaw, hn] at h
  obtain ⟨e, h⟩ := h
  rw [h] at hx; cases hx

theorem FieldLaw.value (h : FieldLaw env srcs mk view old r) {x : φ} (hx : r = .ok x) :
    view x = match readEnv env.get srcs with
      | some (some (n, a)) => mk n a
      | _ => view old := by
  unfold FieldLaw at h
  split at h <;> rename_i heq <;> rw [heq]
  · rw [h] at hx; cases hx; rfl
  · obtain ⟨e, h⟩ := h; rw [h] at hx; cases hx
  · obtain ⟨y, h, hv⟩ := h; rw [h] at hx; cases hx; exact hv

theorem FieldLaw.ok (h : FieldLaw env srcs mk view old r) (hf : readEnv env.get srcs ≠ some none) :
    ∃ x, r = .ok x := by
  unfold FieldLaw at h
  split at h
  · exact ⟨_, h⟩
  · rename_i heq; exact absurd heq hf
  · obtain ⟨y, h, -⟩ := h; exact ⟨y, h⟩
end

/-- A variable is read as `src` says. -/
def Reads {α δ κ φ : Type} (env : Env) (src : Source δ) (mk : Str → δ → κ) (view : φ → κ) (f : α → φ)
    (r : Res (Option α)) : Prop :=
  match readEnv env.get [src] with
  | none => r = .ok none
  | some none => ∃ e, r = .err e
  | some (some (n, a)) => ∃ v, r = .ok (some v) ∧ view (f v) = mk n a

theorem Reads.ifSome {α δ κ φ : Type} {env : Env} {src : Source δ} {mk : Str → δ → κ} {view : φ → κ} {f : α → φ}
    {r : Res (Option α)} (h : Reads env src mk view f r) (old : φ) :
    FieldLaw env [src] mk view old (r.ifSome old f) := by
  unfold Reads at h
  unfold FieldLaw
  split at h
  · rw [h]; rfl
  · obtain ⟨e, h⟩ := h; rw [h]; exact ⟨e, rfl⟩
  · obtain ⟨v, h, hv⟩ := h; rw [h]; exact ⟨_, rfl, hv⟩

theorem FieldLaw.cons {α δ κ φ : Type} {env : Env} {src : Source δ} {mk : Str → δ → κ} {view : φ → κ} {f : α → φ}
    {r : Res (Option α)} (h : Reads env src mk view f r) {srcs : List (Source δ)} {old : φ} {r' : Res φ}
    (h' : FieldLaw env srcs mk view old r') :
    FieldLaw env (src :: srcs) mk view old
      (r >>= fun o => match o with
        | some v => .ok (f v)
        | none => r') := by
  unfold Reads at h
  unfold FieldLaw
  rw [readEnv_cons]
  split at h <;> rename_i heq <;> rw [heq]
  · rw [h]; exact h'
  · obtain ⟨e, h⟩ := h; rw [h]; exact ⟨e, rfl⟩
  · obtain ⟨v, h, hv⟩ := h; rw [h]; exact ⟨_, rfl, hv⟩

theorem Reads.ifSomeElse {α α' δ κ φ : Type} {env : Env} {src src' : Source δ} {mk : Str → δ → κ} {view : φ → κ}
    {f : α → φ} {g : α' → φ} {r : Res (Option α)} {s : Res (Option α')} (h : Reads env src mk view f r)
    (h' : Reads env src' mk view g s) (old : φ) :
    FieldLaw env [src, src'] mk view old (Res.ifSomeElse r f s old g) :=
  FieldLaw.cons h (h'.ifSome old)

/-- `ResolveContext::env` reads the text. -/
theorem reads_var {δ κ φ : Type} {env : Env} {n : Str} {rd : Str → Option δ} {mk : Str → δ → κ} {view : φ → κ}
    {f : Val Str → φ}
    (h : ∀ s, ∃ a, rd s = some a ∧ view (f ⟨s, some (.environment n)⟩) = mk n a) :
    Reads env (n, rd) mk view f (env.var n) := by
  unfold Reads
  simp only [readEnv, Env.var]
  cases env.get n with
  | none => rfl
  | some v =>
    cases v with
    | invalid b => exact ⟨_, rfl⟩
    | unicode s =>
      obtain ⟨a, ha, hv⟩ := h s
      simp only [ha, Option.map_some]
      exact ⟨_, rfl, hv⟩

theorem reads_varRedacted {δ κ φ : Type} {env : Env} {n : Str} {rd : Str → Option δ} {mk : Str → δ → κ} {view : φ → κ}
    {f : Val Str → φ}
    (h : ∀ s, ∃ a, rd s = some a ∧ view (f ⟨s, some (.environment n)⟩) = mk n a) :
    Reads env (n, rd) mk view f (env.varRedacted n) := by
  unfold Reads
  simp only [readEnv, Env.varRedacted]
  cases env.get n with
  | none => rfl
  | some v =>
    cases v with
    | invalid b => exact ⟨_, rfl⟩
    | unicode s =>
      obtain ⟨a, ha, hv⟩ := h s
      simp only [ha, Option.map_some]
      exact ⟨_, rfl, hv⟩

/-- `ResolveContext::env_parse` reads the text with a parser. -/
theorem reads_parse {α δ κ φ : Type} {env : Env} {n : Str} {fromStr : Str → Res α} {rd : Str → Option δ}
    {mk : Str → δ → κ} {view : φ → κ} {f : Val α → φ}
    (h : ∀ s, (∃ v a, fromStr s = .ok v ∧ rd s = some a ∧ view (f ⟨v, some (.environment n)⟩) = mk n a) ∨
      (∃ e, fromStr s = .err e ∧ rd s = none)) :
    Reads env (n, rd) mk view f (env.parse fromStr n) := by
  unfold Reads
  simp only [readEnv, Env.var, Env.parse]
  cases env.get n with
  | none => rfl
  | some v =>
    cases v with
    | invalid b => exact ⟨_, rfl⟩
    | unicode s =>
      rcases h s with ⟨v, a, hv, ha, hm⟩ | ⟨e, he, ha⟩
      · simp only [ha, Option.map_some, OsStr.toStr?, Res.ok_bind, Val.parse, hv]
        exact ⟨_, rfl, hm⟩
      · simp only [ha, Option.map_none, OsStr.toStr?, Res.ok_bind, Val.parse, he, Res.err_bind, Res.withContext]
        exact ⟨_, rfl⟩

/-! ### The kinds of scalar variables -/

/-- A single-valued setting as found in a variable. -/
def mkScalar (n : Str) (a : Option Atom) : Option (Val Atom) := a.map fun a => ⟨a, some (.environment n)⟩

/-- How a single-valued setting is seen by `ScalarKey.get`. -/
def viewAs {α : Type} (inj : α → Atom) (x : Option (Val α)) : Option (Val Atom) := x.map (Val.map inj)

abbrev ReadsScalar {α β : Type} (env : Env) (src : ScalarSource) (inj : β → Atom) (f : Val α → Option (Val β))
    (r : Res (Option (Val α))) : Prop := Reads env src mkScalar (viewAs inj) f r

theorem reads_text (env : Env) (n : String) : ReadsScalar env (asText n) .str some (env.var n.toList) :=
  reads_var fun _ => ⟨_, rfl, rfl⟩

theorem reads_textRedacted (env : Env) (n : String) : ReadsScalar env (asText n) .str some (env.varRedacted n.toList) :=
  reads_varRedacted fun _ => ⟨_, rfl, rfl⟩

theorem reads_wrapper (env : Env) (n : String) : ReadsScalar env (asWrapper n) .str wrapperOf (env.var n.toList) := by
  refine reads_var fun s => ?_
  cases s with
  | nil => exact ⟨_, rfl, rfl⟩
  | cons c s => exact ⟨_, rfl, rfl⟩

theorem reads_incremental (env : Env) (n : Str) :
    ReadsScalar env (n, fun s => some (some (.bool (s = "1".toList)))) .bool
      (fun v => some { val := v.val = "1".toList, defn := v.defn }) (env.var n) :=
  reads_var fun _ => ⟨_, rfl, rfl⟩

theorem reads_bool (env : Env) (n : String) :
    ReadsScalar env (asBool n) .bool some (env.parse boolFromStr n.toList) := by
  refine reads_parse fun s => ?_
  unfold boolFromStr parseBool
  by_cases h1 : s = "true".toList
  · rw [if_pos h1, if_pos h1]; left; exact ⟨_, _, rfl, rfl, rfl⟩
  · rw [if_neg h1, if_neg h1]
    by_cases h2 : s = "false".toList
    · rw [if_pos h2, if_pos h2]; left; exact ⟨_, _, rfl, rfl, rfl⟩
    · rw [if_neg h2, if_neg h2]; right; exact ⟨_, rfl, rfl⟩

theorem digitsVal_eq (s : Str) : ∀ acc, digitsVal acc s =
    if s.all (fun c => '0' ≤ c && c ≤ '9') then some (s.foldl (fun n c => 10 * n + (c.toNat - 48)) acc) else none := by
  induction s with
  | nil => intro acc; rfl
  | cons c s ih =>
    intro acc
    have hc : digitVal c = if ('0' ≤ c && c ≤ '9') = true then some (c.toNat - 48) else none := by
      unfold digitVal
      have e1 : (48 ≤ c.toNat ∧ c.toNat ≤ 57) ↔ ('0' ≤ c && c ≤ '9') = true := by
        rw [Bool.and_eq_true, decide_eq_true_eq, decide_eq_true_eq]; rfl
      by_cases h : ('0' ≤ c && c ≤ '9') = true
      · rw [if_pos h, if_pos (e1.2 h)]
      · rw [if_neg h, if_neg (mt e1.1 h)]
    unfold digitsVal
    rw [hc, List.all_cons, List.foldl_cons]
    by_cases h : ('0' ≤ c && c ≤ '9') = true
    · rw [if_pos h, h]
      simp only [Bool.true_and]
      rw [ih, Nat.mul_comm acc 10]
    · rw [if_neg h]
      have : ('0' ≤ c && c ≤ '9') = false := by simpa using h
      rw [this]; rfl

theorem decimalValue_eq (s : Str) : decimalValue s = match s with
    | [] => none
    | c :: r => digitsVal 0 (c :: r) := by
  unfold decimalValue
  cases s with
  | nil => rfl
  | cons c r =>
    simp only [digitsVal_eq]
    by_cases h : (List.all (c :: r) fun c => '0' ≤ c && c ≤ '9') = true
    · rw [if_pos h, if_pos ⟨by simp, h⟩]
    · rw [if_neg h, if_neg (fun h' => h h'.2)]

theorem textU32_eq (s : Str) : textU32 s = parseU32 s := by
  have key : ∀ r : Str, (match r with
      | [] => none
      | _ => match digitsVal 0 r with
        | some n => if n < 2 ^ 32 then some n else none
        | none => none) = decimalUpTo 4294967295 r := by
    intro r
    unfold decimalUpTo
    rw [decimalValue_eq]
    cases r with
    | nil => rfl
    | cons c r =>
      dsimp only
      cases digitsVal 0 (c :: r) with
      | none => rfl
      | some n =>
        dsimp only
        by_cases h : n < 2 ^ 32
        · rw [if_pos h, if_pos (by omega)]
        · rw [if_neg h, if_neg (by omega)]
  unfold textU32 parseU32 dropPlus
  split
  · exact (key _).symm
  · rename_i h
    split
    · rename_i r; exact absurd rfl (h r)
    · exact (key _).symm

theorem textI32_eq (s : Str) : textI32 s = parseI32 s := by
  have neg : ∀ r : Str, (match r with
      | [] => none
      | _ => match digitsVal 0 r with
        | some n => if n ≤ 2 ^ 31 then some (-(n : Int)) else none
        | none => none) = (decimalUpTo 2147483648 r).map fun n => -(n : Int) := by
    intro r
    unfold decimalUpTo
    rw [decimalValue_eq]
    cases r with
    | nil => rfl
    | cons c r =>
      dsimp only
      cases digitsVal 0 (c :: r) with
      | none => rfl
      | some n =>
        dsimp only
        by_cases h : n ≤ 2 ^ 31
        · rw [if_pos h, if_pos (by omega)]; rfl
        · rw [if_neg h, if_neg (by omega)]; rfl
  have pos : ∀ r : Str, (match r with
      | [] => none
      | _ => match digitsVal 0 r with
        | some n => if n < 2 ^ 31 then some (n : Int) else none
        | none => none) = (decimalUpTo 2147483647 r).map fun n => (n : Int) := by
    intro r
    unfold decimalUpTo
    rw [decimalValue_eq]
    cases r with
    | nil => rfl
    | cons c r =>
      dsimp only
      cases digitsVal 0 (c :: r) with
      | none => rfl
      | some n =>
        dsimp only
        by_cases h : n < 2 ^ 31
        · rw [if_pos h, if_pos (by omega)]; rfl
        · rw [if_neg h, if_neg (by omega)]; rfl
  unfold textI32 parseI32 dropPlus
  split
  · exact (neg _).symm
  · exact (pos _).symm
  · rename_i h h'
    split
    · rename_i r; exact absurd rfl (h r)
    · split
      · rename_i r _; exact absurd rfl (h' r)
      · exact (pos _).symm

theorem reads_u32 (env : Env) (n : String) :
    ReadsScalar env (asU32 n) .nat some (env.parse u32FromStr n.toList) := by
  refine reads_parse fun s => ?_
  unfold u32FromStr
  rw [← textU32_eq]
  cases h : textU32 s with
  | some m => left; exact ⟨_, _, rfl, rfl, rfl⟩
  | none => right; exact ⟨_, rfl, rfl⟩

theorem reads_i32 (env : Env) (n : String) :
    ReadsScalar env (asI32 n) .int some (env.parse i32FromStr n.toList) := by
  refine reads_parse fun s => ?_
  unfold i32FromStr
  rw [← textI32_eq]
  cases h : textI32 s with
  | some m => left; exact ⟨_, _, rfl, rfl, rfl⟩
  | none => right; exact ⟨_, rfl, rfl⟩

theorem find_cons_true (w : String) (a : Atom) (l : List (String × Atom)) (s : Str) (h : s = w.toList) :
    (((w, a) :: l).find? fun e => e.1.toList == s) = some (w, a) := by
  rw [List.find?_cons_of_pos]; simp only [h, beq_self_eq_true]

theorem find_cons_false (w : String) (a : Atom) (l : List (String × Atom)) (s : Str) (h : ¬ s = w.toList) :
    (((w, a) :: l).find? fun e => e.1.toList == s) = l.find? fun e => e.1.toList == s := by
  rw [List.find?_cons_of_neg]
  intro hc
  exact h (eq_of_beq hc).symm

theorem reads_frequency (env : Env) (n : String) :
    ReadsScalar env (asWord n [("always", .frequency .always), ("never", .frequency .never)]) .frequency some
      (env.parse Frequency.fromStr n.toList) := by
  refine reads_parse fun s => ?_
  unfold Frequency.fromStr
  split
  · rename_i h
    rw [find_cons_true _ _ _ _ h]; left; exact ⟨_, _, rfl, rfl, rfl⟩
  · rename_i h
    rw [find_cons_false _ _ _ _ h]
    split
    · rename_i h
      rw [find_cons_true _ _ _ _ h]; left; exact ⟨_, _, rfl, rfl, rfl⟩
    · rename_i h
      rw [find_cons_false _ _ _ _ h]; right; exact ⟨_, rfl, rfl⟩

theorem reads_color (env : Env) (n : String) :
    ReadsScalar env (asWord n [("auto", .color .auto), ("always", .color .always), ("never", .color .never)]) .color some
      (env.parse Color.fromStr n.toList) := by
  refine reads_parse fun s => ?_
  unfold Color.fromStr
  split
  · rename_i h
    rw [find_cons_true _ _ _ _ h]; left; exact ⟨_, _, rfl, rfl, rfl⟩
  · rename_i h
    rw [find_cons_false _ _ _ _ h]
    split
    · rename_i h
      rw [find_cons_true _ _ _ _ h]; left; exact ⟨_, _, rfl, rfl, rfl⟩
    · rename_i h
      rw [find_cons_false _ _ _ _ h]
      split
      · rename_i h
        rw [find_cons_true _ _ _ _ h]; left; exact ⟨_, _, rfl, rfl, rfl⟩
      · rename_i h
        rw [find_cons_false _ _ _ _ h]; right; exact ⟨_, rfl, rfl⟩

theorem reads_when (env : Env) (n : String) :
    ReadsScalar env (asWord n [("auto", .when .auto), ("always", .when .always), ("never", .when .never)]) .when some
      (env.parse When.fromStr n.toList) := by
  refine reads_parse fun s => ?_
  unfold When.fromStr
  split
  · rename_i h
    rw [find_cons_true _ _ _ _ h]; left; exact ⟨_, _, rfl, rfl, rfl⟩
  · rename_i h
    rw [find_cons_false _ _ _ _ h]
    split
    · rename_i h
      rw [find_cons_true _ _ _ _ h]; left; exact ⟨_, _, rfl, rfl, rfl⟩
    · rename_i h
      rw [find_cons_false _ _ _ _ h]
      split
      · rename_i h
        rw [find_cons_true _ _ _ _ h]; left; exact ⟨_, _, rfl, rfl, rfl⟩
      · rename_i h
        rw [find_cons_false _ _ _ _ h]; right; exact ⟨_, rfl, rfl⟩

/-! ### Lists -/

/-- How flags are seen by `ListKey.get`. -/
def viewFlags (x : Option Flags) : Option (Repr' × List (Val Str)) := x.map fun l => (l.repr, l.flags)

/-- How `build.target` is seen by `ListKey.get`. -/
def viewTarget (x : Option StringOrArray) : Option (Repr' × List (Val Str)) := x.map fun
    | .string s => (.string, [s])
    | .array l => (.array, l)

/-- A list as found in a variable. -/
def mkList (n : Str) (x : Repr' × List Str) : Option (Repr' × List (Val Str)) := some (listFromVar n x)

theorem reads_target (env : Env) (n : Str) :
    Reads env (n, fun s => some (.string, [s])) mkList viewTarget (fun v => some (.string v)) (env.var n) :=
  reads_var fun _ => ⟨_, rfl, rfl⟩

theorem law_rustflags (env : Env) (e p b : Str) (old : Option Flags) :
    FieldLaw env [asEncoded e, asWords p, asWords b] mkList (fun x : Option Flags × Bool => viewFlags x.1) (old, false)
      (rustflagsFromEnv env e p b old) := by
  have h2 : FieldLaw env [asWords p, asWords b] mkList (fun x : Option Flags × Bool => viewFlags x.1) (old, false)
      (Res.ifSomeElse (env.var p) (fun v => (some (Flags.fromSpaceSeparated v.val v.defn), true))
        (env.var b) (old, false) (fun v => (some (Flags.fromSpaceSeparated v.val v.defn), false))) := by
    apply Reads.ifSomeElse <;> exact reads_var fun s => ⟨_, rfl, by
      simp [viewFlags, mkList, listFromVar, Flags.fromSpaceSeparated, wordsIn_eq]⟩
  have h1 : Reads env (asEncoded e) mkList (fun x : Option Flags × Bool => viewFlags x.1)
      (fun v => (some (Flags.fromEncoded v), true)) (env.var e) :=
    reads_var fun s => ⟨_, rfl, by simp [viewFlags, mkList, listFromVar, Flags.fromEncoded, splitEncoded, unitSep, piecesAt_eq]⟩
  have h := FieldLaw.cons h1 h2
  unfold rustflagsFromEnv
  cases hv : env.var e with
  | ok o => rw [hv] at h; cases o <;> exact h
  | err _ => rw [hv] at h; exact h
  | panic => rw [hv] at h; exact h

theorem rustflags_override {env : Env} {e p b : Str} {old : Option Flags} {f : Option Flags} {o : Bool}
    (h : rustflagsFromEnv env e p b old = .ok (f, o)) : o = ((env.get e).isSome || (env.get p).isSome) := by
  unfold rustflagsFromEnv Res.ifSomeElse Res.ifSome Env.var at h
  cases he : env.get e with
  | some v => cases v <;> simp [he, OsStr.toStr?] at h ⊢ ; exact h.2
  | none =>
    cases hp : env.get p with
    | some v => cases v <;> simp [he, hp, OsStr.toStr?] at h ⊢; exact h.2
    | none =>
      cases hb : env.get b with
      | some v => cases v <;> simp [he, hp, hb, OsStr.toStr?] at h ⊢; exact h.2
      | none => simp [he, hp, hb] at h ⊢; exact h.2

end CC
