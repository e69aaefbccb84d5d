import Verif.Props.Flags
import Verif.Props.TargetDocs
import Verif.Spec.HandedOn
import Verif.Lemmas.History
import Verif.Lemmas.Target
import Verif.Spec.Resolve
/-
Lemmas for C93: what holds of every target a config resolves for the first time holds of all answers about targets.
-/
namespace CC

variable {c : EConfig} {P : Str → ETarget → Prop} {Q : TargetTriple → Prop}

/-- What holds of all targets in the table stays so, if it holds of all targets that are resolved for the first time. -/
theorem always_next (hP : ∀ t, Q t → ∀ w s e s', s.target.get t.cliTarget = none → c.target t w s = (.ok e, s') → P t.cliTarget e) {s : Cells}
    (h : ∀ k e, s.target.get k = some e → P k e) (q : Query) (hQ : ∀ t, q.targetOf = some t → Q t) (w : World) :
    ∀ k e, (c.ask q w s).2.target.get k = some e → P k e := by
  intro k e he
  cases ht : q.targetOf with
  | none => rw [(ask_other_tables ht w s).2] at he; exact h k e he
  | some t =>
    rw [ask_target ht, map_snd] at he
    obtain ⟨s1, h1, h2⟩ := target_cells c t w s
    have hst : s1.target = s.target := by
      rcases h1 with rfl | ⟨-, -, rfl⟩
      · rfl
      · exact (cfgOf_target w s).1
    rcases h2 with ⟨h2, -⟩ | ⟨e', h3, h4, h2⟩
    · rw [h2, hst] at he; exact h k e he
    · rw [h2] at he
      dsimp only at he
      rw [BMap.get_insert, hst] at he
      split at he
      · rename_i hk
        rw [← Option.some.inj he, ← hk]
        exact hP t (hQ t ht) w s e' _ h3 (Prod.ext h4 rfl)
      · exact h k e he

theorem always_after (hP : ∀ t, Q t → ∀ w s e s', s.target.get t.cliTarget = none → c.target t w s = (.ok e, s') → P t.cliTarget e)
    {s : Cells} (h : ∀ k e, s.target.get k = some e → P k e) (qs : List Query) (hQ : ∀ q ∈ qs, ∀ t, q.targetOf = some t → Q t) (w : World) :
    ∀ k e, (afterAll c w qs s).target.get k = some e → P k e := by
  induction qs generalizing s with
  | nil => exact h
  | cons q qs ih =>
    exact ih (always_next hP h q (hQ q List.mem_cons_self) w) fun q' hq' => hQ q' (List.mem_cons_of_mem _ hq')

theorem always_target (hP : ∀ t, Q t → ∀ w s e s', s.target.get t.cliTarget = none → c.target t w s = (.ok e, s') → P t.cliTarget e)
    {s : Cells} (h0 : s.target = []) (qs : List Query) (hQ : ∀ q ∈ qs, ∀ t, q.targetOf = some t → Q t) (w : World) {t : TargetTriple}
    (ht : Q t) {e : ETarget} {s' : Cells} (h : c.target t w (afterAll c w qs s) = (.ok e, s')) : P t.cliTarget e := by
  have hs := always_after hP (s := s) (fun k e he => by rw [h0] at he; cases he) qs hQ w
  cases hg : (afterAll c w qs s).target.get t.cliTarget with
  | some e' =>
    rw [target_cached hg] at h
    cases h
    exact hs _ _ hg
  | none => exact hP t ht w _ e s' hg h

/-- A successful query about a target shows a part of the target. -/
theorem ask_ok {q : Query} {t : TargetTriple} (hq : q.targetOf = some t) {w : World} {s : Cells} {a : Answer}
    (h : (c.ask q w s).1 = .ok a) : ∃ e s', c.target t w s = (.ok e, s') ∧ a = q.view e := by
  rw [ask_target hq] at h
  cases hx : c.target t w s with
  | mk r s' =>
    cases r with
    | ok e =>
      simp only [Act.map, hx] at h
      cases h
      exact ⟨e, s', rfl, rfl⟩
    | err e => simp only [Act.map, hx] at h; cases h
    | panic => simp only [Act.map, hx] at h; cases h

theorem cliTarget_inj {a b : TargetTriple} (ha : Constructed a) (hb : Constructed b) (h : a.cliTarget = b.cliTarget) : a = b := by
  have := ofStr_cliTarget ha
  rw [h, ofStr_cliTarget hb] at this
  exact (Res.ok.inj this).symm

/-- A portable program is the path itself. -/
theorem programPath_portable {cwd : Path} {v : Val Str} {y : Path} (hp : PortableProgram v.val) (h : ProgramPath cwd v y) : y = v.val := by
  cases h with
  | name | absolute | unlocated => rfl
  | relative s d base h1 h2 h3 =>
    rcases hp with ⟨r, hp⟩ | ⟨g1, g2⟩
    · exact absurd hp (h2 r)
    · rcases h1 with h1 | h1
      · exact absurd h1 g1
      · exact absurd h1 g2

theorem sentEncoded_pieces {look : Str → Option OsStr} {n : String} {f : EFlags} (h : SentEncoded look n f) :
    ∃ text, look n.toList = some (.unicode text) ∧ piecesAt (Char.ofNat 0x1f) text = f.flags := by
  obtain ⟨hf, text, h1, h2⟩ := h
  refine ⟨text, h2, ?_⟩
  rw [C50_pieces, ← C50_decode, (C50_roundtrip_iff f text h1).2 hf]

theorem sentPlain_words {look : Str → Option OsStr} {n m : String} {f : EFlags} (h : SentPlain look n m f) :
    ∃ text, look m.toList = some (.unicode text) ∧ wordsIn text = f.flags := by
  obtain ⟨hf, _, text, h1, h2⟩ := h
  refine ⟨text, h2, ?_⟩
  rw [C51_wordsIn, ← C51_words, (C51_roundtrip_iff f text h1).2 hf]

theorem flags_ext {x : Option EFlags} {f : EFlags} (h : x.map (·.flags) = some f.flags) : x = some f := by
  cases x with
  | none => cases h
  | some g =>
    obtain ⟨g⟩ := g
    obtain ⟨f⟩ := f
    simp only [Option.map_some, Option.some.injEq] at h
    rw [h]

end CC
