import Verif.Lemmas.CfgSpan
/-
Helper lemmas: exactly when the parser of cfg expressions panics.
-/
namespace CC

/-! ### First tokens -/

theorem Lexes.begins {off : Nat} {s : Str} {lts : List LexerToken} (h : Lexes off s lts) :
    BeginsWith s (lts.map (·.token)) := by
  induction h with
  | nil off w h => exact .nil w
  | cons off w t rest lts h1 h2 h3 _ ih => exact .cons w t rest _ h1 h2 h3 ih

theorem LexErr.begins {l : Lexer} {lts : List LexerToken} {a b : Nat} {r : Reason} (h : LexErr l lts a b r) :
    BeginsWith l.inner (lts.map (·.token)) := by
  induction h with
  | here l a b r _ _ _ => exact .nil _
  | cons off orig w t rest lts a b r h1 h2 h3 h4 ih => exact .cons w t rest _ h1 h2 h3 ih

theorem BeginsWith.take {s : Str} {ts us : List Token} (h : BeginsWith s (ts ++ us)) : BeginsWith s ts := by
  induction ts generalizing s with
  | nil => exact .nil s
  | cons t ts ih =>
    cases h with
    | cons w _ rest _ h1 h2 h3 h4 => exact .cons w t rest ts h1 h2 h3 (ih h4)

theorem Lexes.first {off : Nat} {s : Str} {lts : List LexerToken} {ts : List Token} (h : Lexes off s lts)
    (hb : BeginsWith s ts) : ∃ us, lts.map (·.token) = ts ++ us := by
  induction h generalizing ts with
  | nil off w hw =>
    cases hb with
    | nil => exact ⟨_, rfl⟩
    | cons w' t rest ts a b c d =>
      have e1 := next_end (l := ⟨w' ++ t.text ++ rest, [], off⟩) hw
      rw [next_token rfl a b c] at e1
      cases e1
  | cons off w t rest lts h1 h2 h3 h4 ih =>
    have e1 := next_token (l := ⟨w ++ t.text ++ rest, [], off⟩) rfl h1 h2 h3
    generalize hs : w ++ t.text ++ rest = s at hb e1
    cases hb with
    | nil => exact ⟨_, rfl⟩
    | cons w' t' rest' ts a b c d =>
      rw [next_token (l := ⟨w' ++ t'.text ++ rest', [], off⟩) rfl a b c] at e1
      simp only [Option.some.injEq, Res.ok.injEq, Prod.mk.injEq, LexerToken.mk.injEq, Lexer.mk.injEq] at e1
      obtain ⟨⟨rfl, -⟩, rfl, -⟩ := e1
      obtain ⟨us, hu⟩ := ih d
      exact ⟨us, by simp [hu]⟩

theorem LexErr.first {l : Lexer} {lts : List LexerToken} {a b : Nat} {r : Reason} {ts : List Token} (h : LexErr l lts a b r)
    (hb : BeginsWith l.inner ts) : ∃ us, lts.map (·.token) = ts ++ us := by
  induction h generalizing ts with
  | here l a b r hn _ _ =>
    obtain ⟨inner, orig, off⟩ := l
    cases hb with
    | nil => exact ⟨_, rfl⟩
    | cons w t rest ts h1 h2 h3 h4 => rw [next_token rfl h1 h2 h3] at hn; cases hn
  | cons off orig w t rest lts a b r h1 h2 h3 h4 ih =>
    have e1 := next_token (l := ⟨w ++ t.text ++ rest, orig, off⟩) rfl h1 h2 h3
    simp only at hb
    generalize hs : w ++ t.text ++ rest = s at hb e1
    cases hb with
    | nil => exact ⟨_, rfl⟩
    | cons w' t' rest' ts a b c d =>
      rw [next_token (l := ⟨w' ++ t'.text ++ rest', orig, off⟩) rfl a b c] at e1
      simp only [Option.some.injEq, Res.ok.injEq, Prod.mk.injEq, LexerToken.mk.injEq, Lexer.mk.injEq] at e1
      obtain ⟨⟨rfl, -⟩, rfl, -⟩ := e1
      obtain ⟨us, hu⟩ := ih d
      exact ⟨us, by simp [hu]⟩

/-! ### The abstract machine -/

theorem astep_panic_word {checks : Bool} {a : AState} {t : Token} (h : a.step checks t = .panic) : ∃ f : FnName, t = f.token := by
  unfold AState.step at h
  cases t with
  | key k => simp only at h; split at h <;> simp [aErr, cfgErr] at h
  | value k => simp only at h; split at h <;> simp [aErr, cfgErr] at h
  | equals => simp only at h; split at h <;> simp [aErr, cfgErr] at h
  | openParen => simp only at h; split at h <;> simp [aErr, cfgErr] at h
  | all => exact ⟨.all, rfl⟩
  | any => exact ⟨.any, rfl⟩
  | not => exact ⟨.not, rfl⟩
  | closeParen =>
    simp only [AState.close] at h
    split at h
    · simp [aErr, cfgErr] at h
    · split at h
      · simp [aErr, cfgErr] at h
      · split at h <;> simp [aErr, cfgErr] at h
  | comma =>
    simp only [AState.comma] at h
    split at h
    · simp [aErr, cfgErr] at h
    · split at h <;> simp at h

theorem run_panic_at {checks : Bool} {a : AState} {us : List Token} (h : a.run checks us = .panic) :
    ∃ pre t post b, us = pre ++ t :: post ∧ a.run checks pre = .ok b ∧ b.step checks t = .panic := by
  induction us generalizing a with
  | nil => cases h
  | cons t us ih =>
    simp only [AState.run] at h
    cases hs : a.step checks t with
    | ok b =>
      rw [hs] at h
      obtain ⟨pre, t', post, c, h1, h2, h3⟩ := ih h
      exact ⟨t :: pre, t', post, c, by rw [h1]; rfl, by simp only [AState.run, hs]; exact h2, h3⟩
    | err e => rw [hs] at h; cases h
    | panic => exact ⟨[], t, us, a, rfl, rfl, hs⟩

theorem finished_of_counted {l : List CfgTree} (h : CfgTree.AllFnsList (Counted true) l) : CfgTree.AllFnsList Finished l :=
  AllFnsList_imp (fun f args h => ⟨(countedNot_iff f args).1 h.1, h.2 rfl⟩) _ h

theorem counted_of_finished {l : List CfgTree} (h : CfgTree.AllFnsList Finished l) : CfgTree.AllFnsList (Counted true) l :=
  AllFnsList_imp (fun f args h => ⟨(countedNot_iff f args).2 h.1, fun _ => h.2⟩) _ h

theorem unfinished_of_open {root : List CfgTree} (hroot : CfgTree.AllFnsList Finished root) :
    ∀ {frames : List (FnName × List CfgTree)} {q p : List Token} {e : BodyEnd}, OpenOK root frames q →
    (∀ fr ∈ frames, CfgTree.AllFnsList Finished fr.2) → (∀ fr ∈ frames.tail, fnCount fr.2 ≤ 254) →
    Body true (topOf frames root) e p → e ≠ .item → Unfinished frames.length (topOf frames root) (q ++ p)
  | [], q, p, e, ho, _, _, hb, he => by
    have ho : q = [] := ho
    subst ho
    exact .outside root e p hb he hroot
  | (f, ch) :: rest, q, p, e, ho, hall, hle, hb, he => by
    obtain ⟨q', p', e', h1, h2, h3, rfl⟩ := ho
    have ih := unfinished_of_open hroot h1 (fun fr hfr => hall fr (List.mem_cons_of_mem _ hfr))
      (fun fr hfr => hle fr (List.mem_of_mem_tail hfr)) h2 h3
    refine .inside _ _ _ f ch e p ih ?_ hb he (hall _ List.mem_cons_self)
    intro hd
    cases rest with
    | nil => exact (hd rfl).elim
    | cons fr rest =>
      have := hle fr List.mem_cons_self
      simp only [fnCount] at this
      show fr.2.countP CfgTree.isFn < 255
      omega

/-- Where the machine panics. -/
theorem arun_panic {us : List Token} (h : AState.run true {} us = .panic) :
    ∃ depth args ts f post, us = ts ++ [FnName.token f] ++ post ∧ Unfinished (depth + 1) args ts ∧
      args.countP CfgTree.isFn = 255 := by
  obtain ⟨pre, t, post, b, rfl, hrun, hstep⟩ := run_panic_at h
  obtain ⟨f, rfl⟩ := astep_panic_word hstep
  obtain ⟨_, hs, g, ch, rest, hf, hc⟩ := astep_panic hstep
  have hcnt := (ACounts.init true).run hrun
  obtain ⟨_, _, q, p, e, ho, hb, he, rfl⟩ := (AInv.init.run hrun).starts hs
  obtain ⟨ht1, ht2⟩ := hcnt.top rfl _ _ hf
  have hu := unfinished_of_open (finished_of_counted hcnt.root) ho (fun fr hfr => finished_of_counted (hcnt.frames fr hfr))
    (by rw [hf]; exact ht2) hb he
  rw [hf] at hu
  refine ⟨rest.length, ch, q ++ p, f, post, by simp, hu, ?_⟩
  simp only [fnCount] at ht1 hc
  omega

/-- The machine after unfinished tokens. -/
theorem Unfinished.run {depth : Nat} {args : List CfgTree} {ts : List Token} (h : Unfinished depth args ts) :
    (depth ≠ 0 → args.countP CfgTree.isFn ≤ 255) →
    ∃ a, AState.run true {} ts = .ok a ∧ AReady a ∧ topOf a.frames a.root = args ∧ a.frames.length = depth := by
  have ready : ∀ {a a' : AState} {e : BodyEnd}, AReady a → e ≠ .item → (match e with
        | .start => a'.last = a.last ∧ a'.key = none ∧ a'.val = none
        | .item => itemEnd a'.last = true
        | .comma => a'.last = some .comma ∧ a'.key = none ∧ a'.val = none) → AReady a' := by
    intro a a' e hr he h
    cases e with
    | start => exact ⟨by rw [h.1]; exact hr.starts, h.2.1, h.2.2⟩
    | comma => exact ⟨by rw [h.1]; rfl, h.2.1, h.2.2⟩
    | item => exact (he rfl).elim
  induction h with
  | outside args e p hb he hall =>
    intro _
    obtain ⟨a, h1, h2, h3⟩ := body_complete true hb (counted_of_finished hall) {} ⟨rfl, rfl, rfl⟩ (Or.inl rfl)
      (fun _ h => (h rfl).elim)
    have hr : AReady a := ready (a := {}) ⟨rfl, rfl, rfl⟩ he h3
    rw [settle_idle hr.key] at h2
    refine ⟨a, h1, hr, ?_, ?_⟩
    · rw [h2]
      show topOf (AState.addAll {} args).frames (AState.addAll {} args).root = args
      rw [topOf_addAll]; rfl
    · rw [h2]
      show (AState.addAll {} args).frames.length = 0
      rw [(addAll_frames_nil {} args).2 rfl]; rfl
  | inside depth outer q f args e p hu hd hb he hall ih =>
    intro hle
    obtain ⟨a, h1, hr, htop, hlen⟩ := ih (fun h => by have := hd h; omega)
    let a1 : AState := { a with frames := (f, []) :: a.frames, last := some .openParen }
    have haf : afterFn (some f.token) = true := by cases f <;> rfl
    have hopen : a.run true [f.token, .openParen] = .ok a1 := by
      simp only [AState.run]
      rw [FnName.step_eq]
      unfold AState.openFn
      rw [if_pos hr.starts]
      cases hf : a.frames with
      | nil => simp [AState.step, haf, a1, hf]
      | cons fr rest =>
        obtain ⟨g, ch⟩ := fr
        simp only
        rw [if_neg]
        · simp [AState.step, haf, a1, hf]
        · rintro ⟨h1, h2⟩
          have := hd (by rw [← hlen, hf]; simp)
          rw [hf] at htop
          simp only [topOf] at htop
          subst htop
          simp only [fnCount] at h1
          omega
    have hr1 : AReady a1 := ⟨rfl, hr.key, hr.val⟩
    obtain ⟨a2, h3, h4, h5⟩ := body_complete true hb (counted_of_finished hall) a1 hr1 (Or.inr rfl)
      (fun _ _ => by
        show fnCount ([] ++ args) ≤ 255
        rw [List.nil_append]
        exact hle (by simp))
    have hr2 : AReady a2 := ready hr1 he h5
    rw [settle_idle hr2.key, addAll_cons a1 args (ch := []) rfl] at h4
    refine ⟨a2, ?_, hr2, ?_, ?_⟩
    · rw [AState.run_append, AState.run_append, h1]
      show (a.run true [f.token, .openParen] >>= fun a => a.run true p) = _
      rw [hopen]
      exact h3
    · rw [h4]; rfl
    · rw [h4]; simp [hlen]

theorem Unfinished.panics {depth : Nat} {args : List CfgTree} {ts : List Token} (h : Unfinished (depth + 1) args ts)
    (hc : args.countP CfgTree.isFn = 255) (f : FnName) (post : List Token) :
    AState.run true {} (ts ++ [f.token] ++ post) = .panic := by
  obtain ⟨a, h1, hr, htop, hlen⟩ := h.run (fun _ => by omega)
  rw [AState.run_append, AState.run_append, h1]
  have : a.run true [f.token] = .panic := by
    simp only [AState.run]
    rw [FnName.step_eq]
    unfold AState.openFn
    rw [if_pos hr.starts]
    cases hf : a.frames with
    | nil => rw [hf] at hlen; cases hlen
    | cons fr rest =>
      obtain ⟨g, ch⟩ := fr
      rw [hf] at htop
      simp only [topOf] at htop
      subst htop
      simp only
      rw [if_pos ⟨by simp only [fnCount]; omega, trivial⟩]
      rfl
  show (a.run true [f.token] >>= fun a => a.run true post) = _
  rw [this]
  rfl

theorem runTokens_panic_iff {t : Str} {lts : List LexerToken} (hl : ∀ lt ∈ lts, Spelled t lt) :
    runTokens true t {} lts = .panic ↔ AState.run true {} (lts.map (·.token)) = .panic := by
  have hsim := sim_run true (Refines.init t) hl
  cases hx : runTokens true t {} lts <;> cases hy : AState.run true {} (lts.map (·.token)) <;> rw [hx, hy] at hsim <;>
    first | exact hsim.elim | simp

theorem parse_panic_iff {text inner : Str} (hi : CfgInner text inner) : Expression.parse true text = .panic ↔
    ∃ depth args ts f, BeginsWith inner (ts ++ [FnName.token f]) ∧ Unfinished (depth + 1) args ts ∧
      args.countP CfgTree.isFn = 255 := by
  have main : ∀ {lts : List LexerToken}, (∀ lt ∈ lts, Spelled inner lt) → BeginsWith inner (lts.map (·.token)) →
      (∀ ts, BeginsWith inner ts → ∃ us, lts.map (·.token) = ts ++ us) →
      (runTokens true inner {} lts = .panic ↔ ∃ depth args ts f, BeginsWith inner (ts ++ [FnName.token f]) ∧
        Unfinished (depth + 1) args ts ∧ args.countP CfgTree.isFn = 255) := by
    intro lts h1 h2 h3
    rw [runTokens_panic_iff h1]
    constructor
    · intro h
      obtain ⟨depth, args, ts, f, post, h4, h5, h6⟩ := arun_panic h
      rw [h4] at h2
      exact ⟨depth, args, ts, f, h2.take, h5, h6⟩
    · rintro ⟨depth, args, ts, f, h4, h5, h6⟩
      obtain ⟨us, h7⟩ := h3 _ h4
      rw [h7]
      exact h5.panics h6 f us
  obtain ⟨t, ht, h⟩ := parse_cases true text
  cases hi.unique ht
  rcases h with ⟨lts, hl, hp⟩ | ⟨lts, a, b, r, hl, hp⟩
  · rw [hp, ← main hl.all_spelled hl.begins (fun _ => hl.first)]
    cases hr : runTokens true inner {} lts with
    | ok s => simp [finish_ne_panic]
    | err e => simp
    | panic => simp
  · rw [hp, ← main hl.spelled hl.begins (fun _ => hl.first)]
    cases hr : runTokens true inner {} lts with
    | ok s => simp [cfgErr]
    | err e => simp
    | panic => simp

end CC
