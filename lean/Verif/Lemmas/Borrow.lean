import Verif.Model.Borrow
import Verif.Lemmas.BMap
/-
The checks of the cells never fail (lemmas).
-/
namespace CC

/-- The computation with checks does the same as the one without, for all guards that satisfy `P`, and holds the same guards afterwards. -/
def Same {α : Type} (P : Held → Prop) (m : BAct α) (a : Act α) : Prop :=
  ∀ w s h, P h → m w (s, h) = ((a w s).1, ((a w s).2, h))

namespace Same
variable {α β : Type} {P : Held → Prop}

theorem pure (x : α) : Same P (Pure.pure x) (Pure.pure x) := fun _ _ _ _ => rfl

theorem of (a : Act α) : Same P (BAct.of a) a := fun _ _ _ _ => rfl

theorem bind {m : BAct α} {a : Act α} {f : α → BAct β} {g : α → Act β} (h1 : Same P m a) (h2 : ∀ x, Same P (f x) (g x)) :
    Same P (m >>= f) (a >>= g) := by
  intro w s h hp
  show BAct.bind m f w (s, h) = ((Act.bind a g w s).1, ((Act.bind a g w s).2, h))
  unfold BAct.bind Act.bind
  rw [h1 w s h hp]
  rcases a w s with ⟨_ | _ | _, s'⟩
  · exact h2 _ w s' h hp
  · rfl
  · rfl

theorem attempt {m : BAct α} {a : Act α} (h1 : Same P m a) : Same P (BAct.attempt m) (Act.attempt a) := by
  intro w s h hp
  unfold BAct.attempt Act.attempt
  rw [h1 w s h hp]
  rcases a w s with ⟨_ | _ | _, s'⟩ <;> rfl

theorem borrowMut {c : RefCellName} {Q : Held → Prop} {m : BAct α} {a : Act α} (h1 : Same Q m a)
    (hf : ∀ h, P h → c ∉ h.writing ∧ c ∉ h.reading) (hq : ∀ h, P h → Q { h with writing := c :: h.writing }) :
    Same P (BAct.borrowMut c m) a := by
  intro w s h hp
  unfold BAct.borrowMut
  dsimp only
  rw [if_neg (fun hx => hx.elim (hf h hp).1 (hf h hp).2), h1 w s _ (hq h hp)]
  simp

theorem borrow {c : RefCellName} {Q : Held → Prop} {m : BAct α} {a : Act α} (h1 : Same Q m a)
    (hf : ∀ h, P h → c ∉ h.writing) (hq : ∀ h, P h → Q { h with reading := c :: h.reading }) :
    Same P (BAct.borrow c m) a := by
  intro w s h hp
  unfold BAct.borrow
  dsimp only
  rw [if_neg (hf h hp), h1 w s _ (hq h hp)]
  simp

theorem mono {Q : Held → Prop} {m : BAct α} {a : Act α} (h1 : Same Q m a) (h : ∀ x, P x → Q x) : Same P m a :=
  fun w s x hp => h1 w s x (h x hp)

theorem onceSet {get : Cells → Option α} {set : α → Cells → Cells} {v : α} {g : Cells → Act Unit}
    (hs : ∀ s x, get s = some x → g s = Act.debugAssert false) (hn : ∀ s, get s = none → g s = Act.modify (set v)) :
    Same P (BAct.onceSet get set v >>= fun r => BAct.of (Act.debugAssert r)) (Act.cells >>= g) := by
  intro w s h _
  unfold BAct.onceSet
  show BAct.bind (BAct.bind _ _) _ w (s, h) = (((g s) w s).1, (((g s) w s).2, h))
  simp only [BAct.bind, BAct.of, Act.cells]
  cases hg : get s with
  | some x =>
    rw [hs s x hg]
    rfl
  | none =>
    rw [hn s hg]
    show (_, _, _) = _
    simp only [Act.modify, Act.debugAssert, Bool.not_true, Bool.and_false]
    rfl

end Same

/-- A computation that does not fill the cell. -/
def Leaves {α β : Type} (get : Cells → Option β) (a : Act α) : Prop := ∀ w s, get s = none → get (a w s).2 = none

namespace Leaves
variable {α β γ : Type} {get : Cells → Option γ}

theorem lift (r : Res α) : Leaves get (Act.lift r) := fun _ _ h => h
theorem pure (x : α) : Leaves get (Pure.pure x : Act α) := fun _ _ h => h
theorem cells : Leaves get Act.cells := fun _ _ h => h
theorem debugAssert (b : Bool) : Leaves get (Act.debugAssert b) := fun _ _ h => h
theorem bind {a : Act α} {g : α → Act β} (h1 : Leaves get a) (h2 : ∀ x, Leaves get (g x)) : Leaves get (a >>= g) := by
  intro w s h
  show get (Act.bind a g w s).2 = none
  unfold Act.bind
  have := h1 w s h
  revert this
  rcases a w s with ⟨_ | _ | _, s'⟩
  · exact fun hx => h2 _ w s' hx
  · exact fun hx => hx
  · exact fun hx => hx
theorem attempt {a : Act α} (h1 : Leaves get a) : Leaves get (Act.attempt a) := by
  intro w s h
  unfold Act.attempt
  have := h1 w s h
  revert this
  rcases a w s with ⟨_ | _ | _, s'⟩ <;> exact fun hx => hx

theorem exist (hg : ∀ s n, get { s with clock := n } = get s) (p : Path) : Leaves get (Act.exist p) :=
  fun _ s h => (hg s _).trans h
theorem read (hg : ∀ s n l, get { s with clock := n, trace := l } = get s) (c : Cmd) : Leaves get (Act.read c) :=
  bind (fun _ s h => (hg s _ _).trans h) fun _ => lift _
theorem program (hg : ∀ s n, get { s with clock := n } = get s) (cx : Ctx) (b : EBuild) : Leaves get (rustcProgram cx b) := by
  unfold rustcProgram rustcPath
  cases b.rustc with
  | some p => exact pure _
  | none =>
    refine bind (exist hg _) fun x => ?_
    cases x <;> exact pure _
theorem forVersion (hg : ∀ s n, get { s with clock := n } = get s) (cx : Ctx) (b : EBuild) : Leaves get (rustcForVersion cx b) :=
  bind (program hg cx b) fun _ => pure _
end Leaves

/-- `get_or_init` without its check. -/
theorem same_getOrInit {α : Type} {P : Held → Prop} {get : Cells → Option α} {set : α → Cells → Cells} {init : BAct α} {a : Act α}
    (h1 : Same P init a) (hl : Leaves get a) :
    Same P (BAct.getOrInit get set init)
      (do
        let s ← Act.cells
        match get s with
        | some x => Pure.pure x
        | none =>
          let x ← a
          Act.modify (set x)
          pure x) := by
  intro w s h hp
  unfold BAct.getOrInit
  show BAct.bind _ _ w (s, h) = ((Act.bind _ _ w s).1, ((Act.bind _ _ w s).2, h))
  simp only [BAct.bind, Act.bind, BAct.of, Act.cells]
  cases hg : get s with
  | some _ => rfl
  | none =>
    show BAct.bind init _ w (s, h) = ((Act.bind a _ w s).1, ((Act.bind a _ w s).2, h))
    unfold BAct.bind Act.bind
    rw [h1 w s h hp]
    have hn := hl w s hg
    revert hn
    rcases a w s with ⟨_ | _ | _, s'⟩
    · intro hn
      show BAct.bind _ _ w (s', h) = _
      simp only [BAct.bind, BAct.of, Act.cells]
      rw [show get s' = none from hn]
      rfl
    · exact fun _ => rfl
    · exact fun _ => rfl

/-- `get_or_init` of a cell that is known to be empty. -/
theorem getOrInit_empty {α : Type} {get : Cells → Option α} {set : α → Cells → Cells} (v : α) {w : World} {s : Cells} {h : Held}
    (hg : get s = none) : BAct.getOrInit get set (pure v) w (s, h) = (.ok v, (set v s, h)) := by
  unfold BAct.getOrInit
  show BAct.bind _ _ w (s, h) = _
  simp only [BAct.bind, BAct.of, Act.cells, hg]
  show BAct.bind _ _ w (s, h) = _
  simp only [BAct.bind]
  show BAct.bind _ _ w (s, h) = _
  simp only [BAct.bind, BAct.of, Act.cells, hg]
  rfl

/-- As `Same`, if the cell is empty. -/
def SameN {α β : Type} (get : Cells → Option β) (P : Held → Prop) (m : BAct α) (a : Act α) : Prop :=
  ∀ w s h, get s = none → P h → m w (s, h) = ((a w s).1, ((a w s).2, h))

theorem SameN.bind {α β γ : Type} {get : Cells → Option γ} {P : Held → Prop} {m : BAct α} {a : Act α} {f : α → BAct β} {g : α → Act β}
    (h1 : Same P m a) (hl : Leaves get a) (h2 : ∀ x, SameN get P (f x) (g x)) : SameN get P (m >>= f) (a >>= g) := by
  intro w s h hn hp
  show BAct.bind m f w (s, h) = ((Act.bind a g w s).1, ((Act.bind a g w s).2, h))
  unfold BAct.bind Act.bind
  rw [h1 w s h hp]
  have := hl w s hn
  revert this
  rcases a w s with ⟨_ | _ | _, s'⟩
  · exact fun hx => h2 _ w s' h hx hp
  · exact fun _ => rfl
  · exact fun _ => rfl

theorem SameN.fill {α : Type} {get : Cells → Option α} {P : Held → Prop} (set : α → Cells → Cells) (v : α) :
    SameN get P (BAct.getOrInit get set (Pure.pure v)) (do Act.modify (set v); Pure.pure v) :=
  fun _ _ _ hn _ => getOrInit_empty v hn

/-- The first check of a query. -/
theorem same_cached {α : Type} {get : Cells → Option α} {P : Held → Prop} {m : BAct α} {a : Act α} {f : Cells → BAct α}
    {g : Cells → Act α} (hs : ∀ s x, get s = some x → f s = Pure.pure x ∧ g s = Pure.pure x)
    (hn : ∀ s, get s = none → f s = m ∧ g s = a) (h : SameN get P m a) : Same P (BAct.of Act.cells >>= f) (Act.cells >>= g) := by
  intro w s k hp
  show f s w (s, k) = ((g s w s).1, ((g s w s).2, k))
  cases hg : get s with
  | some x => rw [(hs s x hg).1, (hs s x hg).2]; rfl
  | none => rw [(hn s hg).1, (hn s hg).2]; exact h w s k hg hp

theorem rustc_checked {P : Held → Prop} (cx : Ctx) (b : EBuild) : Same P (rustcB cx b) (queryRustc cx b) := by
  have h := same_getOrInit (P := P) (get := (·.rustc)) (set := fun r s => { s with rustc := some r })
    (Same.bind (Same.of (rustcProgram cx b)) fun rustc =>
      Same.pure (wrapped (b.rustcWrapper.toList ++ b.rustcWorkspaceWrapper.toList) rustc))
    (Leaves.bind (Leaves.program (fun _ _ => rfl) cx b) fun _ => Leaves.pure _)
  intro w s g hp
  refine (h w s g hp).trans ?_
  show ((Act.bind _ _ w s).1, ((Act.bind _ _ w s).2, g)) = ((Act.bind _ _ w s).1, ((Act.bind _ _ w s).2, g))
  simp only [Act.bind, Act.cells]
  cases s.rustc with
  | some _ => rfl
  | none =>
    show ((Act.bind (Act.bind _ _) _ w s).1, ((Act.bind (Act.bind _ _) _ w s).2, g)) = ((Act.bind _ _ w s).1, ((Act.bind _ _ w s).2, g))
    simp only [Act.bind]
    rcases rustcProgram cx b w s with ⟨_ | _ | _, s'⟩ <;> rfl

theorem BAct.assoc {α β γ : Type} (m : BAct α) (f : α → BAct β) (g : β → BAct γ) : (m >>= f) >>= g = m >>= fun x => f x >>= g := by
  funext w x
  show BAct.bind (BAct.bind m f) g w x = BAct.bind m (fun x => BAct.bind (f x) g) w x
  unfold BAct.bind
  rcases m w x with ⟨_ | _ | _, s'⟩ <;> rfl

theorem hostFromCargo_checked {P : Held → Prop} (cx : Ctx) : Same P (hostFromCargoB cx) (hostFromCargo cx) := by
  refine Same.bind (.of _) fun vv => Same.bind (.of _) fun v => ?_
  rw [← BAct.assoc]
  refine Same.bind (?_ : Same P _ (setCargoVersion v)) fun _ => .of _
  exact Same.onceSet (fun s x h => by simp only [h]) (fun s h => by simp only [h])

theorem hostFromRustc_checked {P : Held → Prop} (cx : Ctx) (b : EBuild) : Same P (hostFromRustcB cx b) (hostFromRustc cx b) := by
  refine Same.bind (.of _) fun x => Same.bind (.of _) fun vv => Same.bind (.of _) fun v => ?_
  rw [← BAct.assoc]
  refine Same.bind (?_ : Same P _ (setRustcVersion v)) fun _ => .of _
  exact Same.onceSet (fun s x h => by simp only [h]) (fun s h => by simp only [h])

theorem leaves_setCargo (v : CargoVersion) : Leaves (·.hostTriple) (setCargoVersion v) := by
  refine Leaves.bind Leaves.cells fun s => ?_
  cases s.cargoVersion with
  | some _ => exact Leaves.debugAssert _
  | none => exact fun _ _ h => h

theorem leaves_setRustc (v : RustcVersion) : Leaves (·.hostTriple) (setRustcVersion v) := by
  refine Leaves.bind Leaves.cells fun s => ?_
  cases s.rustcVersion with
  | some _ => exact Leaves.debugAssert _
  | none => exact fun _ _ h => h

theorem leaves_hostFromCargo (cx : Ctx) : Leaves (·.hostTriple) (hostFromCargo cx) :=
  Leaves.bind (Leaves.read (fun _ _ _ => rfl) _) fun _ => Leaves.bind (Leaves.lift _) fun _ => Leaves.bind (leaves_setCargo _) fun _ =>
    Leaves.lift _

theorem leaves_hostFromRustc (cx : Ctx) (b : EBuild) : Leaves (·.hostTriple) (hostFromRustc cx b) :=
  Leaves.bind (Leaves.forVersion (fun _ _ => rfl) _ _) fun _ => Leaves.bind (Leaves.read (fun _ _ _ => rfl) _) fun _ =>
    Leaves.bind (Leaves.lift _) fun _ => Leaves.bind (leaves_setRustc _) fun _ => Leaves.lift _

theorem host_checked {P : Held → Prop} (cx : Ctx) (b : EBuild) : Same P (hostTripleB cx b) (queryHostTriple cx b) := by
  refine same_cached (get := fun s => s.hostTriple)
      (fun s x h => by constructor <;> simp only [h]) (fun s h => by constructor <;> simp only [h] <;> rfl) ?_
  refine SameN.bind (Same.attempt (hostFromCargo_checked cx)) (Leaves.attempt (leaves_hostFromCargo cx)) fun x => ?_
  cases x with
  | some x => exact SameN.bind (.pure x) (Leaves.pure x) fun v => SameN.fill (fun h s => { s with hostTriple := some h }) v
  | none =>
    exact SameN.bind (hostFromRustc_checked cx b) (leaves_hostFromRustc cx b) fun v => SameN.fill (fun h s => { s with hostTriple := some h }) v

theorem rustcVersion_checked {P : Held → Prop} (cx : Ctx) (b : EBuild) : Same P (rustcVersionB cx b) (queryRustcVersion cx b) := by
  refine Same.bind (.of _) fun s => ?_
  cases s.rustcVersion with
  | some _ => exact .pure _
  | none =>
    refine Same.bind (Same.attempt (host_checked cx b)) fun _ => same_cached (get := fun s => s.rustcVersion)
      (fun s x h => by constructor <;> simp only [h]) (fun s h => by constructor <;> simp only [h] <;> rfl) ?_
    exact SameN.bind (.of _) (Leaves.forVersion (fun _ _ => rfl) _ _) fun x =>
      SameN.bind (.of _) (Leaves.read (fun _ _ _ => rfl) _) fun vv => SameN.bind (.of _) (Leaves.lift _) fun v =>
        SameN.fill (fun v s => { s with rustcVersion := some v }) v

theorem cargoVersion_checked {P : Held → Prop} (cx : Ctx) (b : EBuild) : Same P (cargoVersionB cx b) (queryCargoVersion cx b) := by
  refine Same.bind (.of _) fun s => ?_
  cases s.cargoVersion with
  | some _ => exact .pure _
  | none =>
    refine Same.bind (Same.attempt (host_checked cx b)) fun _ => same_cached (get := fun s => s.cargoVersion)
      (fun s x h => by constructor <;> simp only [h]) (fun s h => by constructor <;> simp only [h] <;> rfl) ?_
    exact SameN.bind (.of _) (Leaves.read (fun _ _ _ => rfl) _) fun vv => SameN.bind (.of _) (Leaves.lift _) fun v =>
      SameN.fill (fun v s => { s with cargoVersion := some v }) v

theorem cfgOf_checked {P : Held → Prop} (cx : Ctx) (b : EBuild) (t : TargetTriple) : Same P (cfgOfB cx b t) (cfgOf cx b t) := by
  refine Same.bind (.of _) fun s => ?_
  cases s.cfg.get t.cliTarget with
  | some _ => exact .pure _
  | none =>
    refine Same.bind (rustc_checked cx b) fun x => Same.bind (.of _) fun c => ?_
    intro w s h _
    show (Res.unwrap ((s.cfg.insert t.cliTarget c).get t.cliTarget), _, _) = _
    rw [BMap.get_insert, if_pos rfl]
    rfl

/-- `target` may be in use, `cfg` is not. -/
def CfgFree (h : Held) : Prop := RefCellName.cfg ∉ h.writing ∧ RefCellName.cfg ∉ h.reading
/-- Neither is in use. -/
def AllFree (h : Held) : Prop := CfgFree h ∧ RefCellName.target ∉ h.writing ∧ RefCellName.target ∉ h.reading

theorem evalCfg_checked (cx : Ctx) (b : EBuild) (key : Str) (t : TargetTriple) : Same CfgFree (evalCfgB cx b key t) (evalCfg cx b key t) := by
  intro w s h hp
  refine Same.bind (P := CfgFree) (.of (Act.lift (Expression.parse w.checks key))) (fun e => ?_) w s h hp
  exact Same.borrowMut (Q := fun _ => True) (Same.bind (cfgOf_checked cx b t) fun c => .of _) (fun _ hx => hx) fun _ _ => trivial

theorem cfgTables_checked (cx : Ctx) (b : EBuild) (t : TargetTriple) (m : BMap TargetConfig) :
    ∀ a, Same CfgFree (cfgTablesB cx b t m a) (cfgTables cx b t m a) := by
  induction m with
  | nil => exact fun a => .pure a
  | cons x m ih =>
    intro a
    unfold cfgTablesB cfgTables
    split
    · exact ih a
    · exact Same.bind (evalCfg_checked cx b x.1 t) fun holds => ih _

theorem resolveTarget_checked (cx : Ctx) (m : BMap TargetConfig) (o1 : Bool) (f1 : Option Flags) (o2 : Bool) (f2 : Option Flags)
    (t : TargetTriple) (b : EBuild) : Same CfgFree (resolveTargetB cx m o1 f1 o2 f2 t b) (resolveTarget cx m o1 f1 o2 f2 t b) := by
  unfold resolveTargetB resolveTarget
  split
  · exact .of _
  · exact Same.bind (.of _) fun a => Same.bind (cfgTables_checked cx b t m a) fun a => .pure _

theorem initTarget_checked (c : EConfig) (t : TargetTriple) : Same AllFree (c.initTargetB t) (c.initTarget t) := by
  refine Same.borrowMut (Q := CfgFree) ?_ (fun _ h => h.2) fun h hx => ⟨by simp [hx.1.1], hx.1.2⟩
  refine Same.bind (.of _) fun s => ?_
  cases s.target.get t.cliTarget with
  | some _ => exact .pure _
  | none => exact Same.bind (resolveTarget_checked _ _ _ _ _ _ _ _) fun _ => Same.bind (.of _) fun _ => .of _

theorem targetEntry_checked (c : EConfig) (t : TargetTriple) : Same AllFree (c.targetEntryB t) (c.targetEntry t) :=
  Same.bind (initTarget_checked c t) fun _ =>
    Same.borrow (Q := fun _ => True) (Same.bind (.of _) fun _ => .of _) (fun _ h => h.2.1) fun _ _ => trivial

theorem buildTarget_checked {P : Held → Prop} (c : EConfig) (ts : List TargetTriple) :
    Same P (c.buildTargetForConfigB ts) (c.buildTargetForConfig ts) := by
  unfold EConfig.buildTargetForConfigB EConfig.buildTargetForConfig
  split
  · exact .pure _
  · dsimp only
    split
    · exact .pure _
    · exact Same.bind (host_checked _ _) fun _ => Same.bind (.of _) fun _ => .pure _

theorem Same.map {α β : Type} {P : Held → Prop} {m : BAct α} {a : Act α} (f : α → β) (h : Same P m a) :
    Same P (do return f (← m)) (Act.map f a) := by
  intro w s g hp
  refine (Same.bind h (fun x => Same.pure (P := P) (f x)) w s g hp).trans ?_
  show ((Act.bind _ _ w s).1, ((Act.bind _ _ w s).2, g)) = _
  unfold Act.bind Act.map
  rcases a w s with ⟨_ | _ | _, s'⟩ <;> rfl

theorem Same.map_map {α β γ : Type} {P : Held → Prop} {m : BAct α} {a : Act α} (f : α → β) (k : β → γ) (h : Same P m a) :
    Same P (do return k (f (← m))) (Act.map k (do return f (← a))) := by
  intro w s g hp
  refine (Same.bind h (fun x => Same.pure (P := P) (k (f x))) w s g hp).trans ?_
  show ((Act.bind _ _ w s).1, ((Act.bind _ _ w s).2, g)) = ((Act.map k (Act.bind a _) w s).1, ((Act.map k (Act.bind a _) w s).2, g))
  simp only [Act.bind, Act.map]
  rcases a w s with ⟨_ | _ | _, s'⟩ <;> rfl

theorem afterQueries_append (w : World) (qs rs : List (EConfig × Query)) : ∀ s,
    afterQueries w (qs ++ rs) s = afterQueries w rs (afterQueries w qs s) := by
  induction qs with
  | nil => intro s; rfl
  | cons q qs ih => intro s; exact ih _

theorem ask_checked (c : EConfig) (q : Query) : Same AllFree (c.askB q) (c.ask q) := by
  cases q with
  | target t => exact (targetEntry_checked c t).map Answer.target
  | linker t => exact (targetEntry_checked c t).map_map (·.linker) Answer.path
  | runner t => exact (targetEntry_checked c t).map_map (·.runner) Answer.prog
  | rustflags t => exact (targetEntry_checked c t).map_map (·.rustflags) Answer.flags
  | rustdocflags t => exact (targetEntry_checked c t).map_map (·.rustdocflags) Answer.flags
  | rustc => exact (rustc_checked _ _).map Answer.rustc
  | hostTriple => exact (host_checked _ _).map Answer.host
  | rustcVersion => exact (rustcVersion_checked _ _).map Answer.rustcVersion
  | cargoVersion => exact (cargoVersion_checked _ _).map Answer.cargoVersion
  | buildTargetForConfig ts => exact (buildTarget_checked c ts).map Answer.targets
  | buildTargetForCli ts => exact .of _

end CC
