import Verif.Proofs.Two
import Verif.Proofs.Chronicle
import Verif.Spec.Console
/-
The console: without what is printed it is the parser; what a level prints is what a higher level prints without the
lines above it; the lines are those of the trace.
-/
namespace CPE.Con
open CPE.Spec CPE.Con.Spec
variable {δ ω : Type}

/-! ### Without what is printed it is the parser -/

/-- The outcome without its value. -/
def voided {α : Type} : Out α → Out Unit
  | .ok _ => .ok ()
  | .exc e => .exc e
  | .diverge => .diverge

/-- The same outcome and the same state of the object. -/
def Erases {α : Type} (m : M (World δ ω) α) (m' : M (CPE.World δ ω) α) : Prop :=
  ∀ w l, (m (w, l)).1 = (m' w).1 ∧ (m (w, l)).2.1 = (m' w).2

/-- The same, values apart. -/
def ErasesV {α β : Type} (m : M (World δ ω) α) (m' : M (CPE.World δ ω) β) : Prop :=
  ∀ w l, voided (m (w, l)).1 = voided (m' w).1 ∧ (m (w, l)).2.1 = (m' w).2

theorem Erases.void {α : Type} {m : M (World δ ω) α} {m' : M (CPE.World δ ω) α} (h : Erases m m') : ErasesV m m' :=
  fun w l => ⟨by rw [(h w l).1], (h w l).2⟩

theorem ErasesV.unit {m : M (World δ ω) Unit} {m' : M (CPE.World δ ω) Unit} (h : ErasesV m m') : Erases m m' := by
  intro w l
  have := h w l
  refine ⟨?_, this.2⟩
  have h1 := this.1
  revert h1
  cases (m (w, l)).1 <;> cases (m' w).1 <;> simp [voided]

theorem ErasesV.bind {α β γ ε : Type} {m : M (World δ ω) α} {m' : M (CPE.World δ ω) β} {f : α → M (World δ ω) γ}
    {f' : β → M (CPE.World δ ω) ε} (h : ErasesV m m') (hf : ∀ a b, ErasesV (f a) (f' b)) : ErasesV (m >>= f) (m' >>= f') := by
  intro w l
  have := h w l
  rw [M.bind_def, M.bind_def]
  cases hm : m (w, l) with
  | mk o x =>
    cases hm' : m' w with
    | mk o' w' =>
      rw [hm, hm'] at this
      obtain ⟨h1, h2⟩ := this
      dsimp only at h1 h2
      subst h2
      cases o <;> cases o' <;> simp only [voided, Out.exc.injEq, reduceCtorEq] at h1
      · exact hf _ _ _ _
      · subst h1; exact ⟨rfl, rfl⟩
      · exact ⟨rfl, rfl⟩

theorem Erases.bind {α β : Type} {m : M (World δ ω) α} {m' : M (CPE.World δ ω) α} {f : α → M (World δ ω) β}
    {f' : α → M (CPE.World δ ω) β} (h : Erases m m') (hf : ∀ a, Erases (f a) (f' a)) : Erases (m >>= f) (m' >>= f') := by
  intro w l
  have := h w l
  rw [M.bind_def, M.bind_def]
  cases hm : m (w, l) with
  | mk o x =>
    cases hm' : m' w with
    | mk o' w' =>
      rw [hm, hm'] at this
      obtain ⟨h1, h2⟩ := this
      dsimp only at h1 h2
      subst h2 h1
      cases o
      · exact hf _ _ _
      · exact ⟨rfl, rfl⟩
      · exact ⟨rfl, rfl⟩

/-- After it, a value: nothing changes. -/
theorem ErasesV.value {α β γ : Type} {m : M (World δ ω) α} {m' : M (CPE.World δ ω) β} (h : ErasesV m m') (x : γ) :
    ErasesV (m >>= fun _ => pure x) m' := by
  intro w l
  have := h w l
  rw [M.bind_def]
  revert this
  cases m (w, l) with
  | mk o y => cases o <;> exact fun h => h

theorem Erases.value {γ : Type} {m : M (World δ ω) Unit} (h : ErasesV m (pure () : M (CPE.World δ ω) Unit))
    {f : Unit → M (World δ ω) γ} {f' : M (CPE.World δ ω) γ} (hf : Erases (f ()) f') : Erases (m >>= f) f' := by
  have := Erases.bind h.unit (f := f) (f' := fun _ => f') fun _ => hf
  exact this

theorem Erases.lift {α : Type} (m : M (CPE.World δ ω) α) : Erases (lift m) m := fun _ _ => ⟨rfl, rfl⟩

theorem Erases.pure' {α : Type} (a : α) : Erases (δ := δ) (ω := ω) (pure a) (pure a) := fun _ _ => ⟨rfl, rfl⟩

theorem Erases.raise' {α : Type} (e : PyExc) : Erases (δ := δ) (ω := ω) (α := α) (M.raise e) (M.raise e) := fun _ _ => ⟨rfl, rfl⟩

theorem Erases.ofExcept {α : Type} (x : Except PyExc α) : Erases (δ := δ) (ω := ω) (M.ofExcept x) (M.ofExcept x) := by
  cases x
  · exact .raise' _
  · exact .pure' _

section
variable {E : Env δ ω} {P : Printer δ}

/-- A message, then the rest. -/
theorem Erases.say {γ : Type} (k : Nat) (t : Str) {f : Unit → M (World δ ω) γ} {f' : M (CPE.World δ ω) γ}
    (hf : Erases (f ()) f') : Erases (say E k t >>= f) f' := by
  refine Erases.value (fun w l => ?_) hf
  unfold Con.say
  cases (DbgState.debugMessage k t py!"\n" true { level := some E.debug }).1 <;> exact ⟨rfl, rfl⟩

theorem Erases.say' (k : Nat) (t : Str) : Erases (Con.say E k t) (pure ()) := by
  have : Erases (Con.say E k t >>= fun _ => pure ()) (pure ()) := .say k t (.pure' ())
  intro w l
  have := this w l
  rw [M.bind_def] at this
  revert this
  cases Con.say E k t (w, l) with
  | mk o y => cases o <;> exact fun h => h

/-- Reading for a message. -/
theorem Erases.peek {γ : Type} {f : World δ ω → M (World δ ω) γ} {f' : M (CPE.World δ ω) γ} (hf : ∀ w, Erases (f w) f') :
    Erases (M.read >>= f) f' := fun w l => hf (w, l) w l

theorem Erases.enter (c : HCall) : Erases (enterHandler E P c) (logAdd E (.handlerEntry c.handlerName c.rawKey c.rawValue)) :=
  .say _ _ <| .say _ _ <| .say _ _ <| .say _ _ <| .say _ _ <| .peek fun _ => .say _ _ <| .say _ _ <| .lift _

theorem Erases.exit (c : HCall) : Erases (exitHandler E P c) (logAdd E (.handlerExit c.handlerName c.rawKey c.rawValue)) :=
  .say _ _ <| .say _ _ <| .peek fun _ => .say _ _ <| .say _ _ <| .lift _

theorem Erases.check (name : Str) (r : Ret) : Erases (checkRval E name r) (CPE.checkRval E r) := by
  cases r
  · exact .say _ _ (.lift _)
  · exact .lift _

theorem Erases.opHandler {c c' : HCall} (h1 : c.handlerName = c'.handlerName) (h2 : c.rawKey = c'.rawKey) (h3 : c.rawValue = c'.rawValue)
    {m : M (World δ ω) Ret} {m' : M (CPE.World δ ω) Ret}
    (h : Erases m m') : Erases (operationHandler E P c m) (CPE.operationHandler E c' m') := by
  unfold Con.operationHandler CPE.operationHandler
  rw [← h1, ← h2, ← h3]
  exact (Erases.enter c).bind fun _ => h.bind fun r => (Erases.exit c).bind fun _ => .check _ r

theorem Erases.callHandler (h : Handler δ ω) (c : HCall) : Erases (callHandler E P h c) (CPE.callHandler E h c) := by
  unfold Con.callHandler CPE.callHandler
  split
  · exact .opHandler rfl rfl rfl (.lift _)
  · exact (Erases.lift _).bind fun _ => .pure' ()

theorem Erases.generic (hp : Str × List Str) (r s k : Str) (v : Option Str) :
    Erases (launchGeneric E P hp r s k v) (CPE.launchGeneric E r s k v) :=
  (Erases.lift _).bind fun _ => .opHandler rfl rfl rfl (.pure' _)

theorem Erases.missing (b : Bool) (name : Str) {γ : Type} {f : Unit → M (World δ ω) γ} {f' : M (CPE.World δ ω) γ}
    (hf : Erases (f ()) f') : Erases (sayMissing E b name >>= f) f' := by
  unfold sayMissing
  split
  · exact hf
  · exact .say _ _ hf

theorem Erases.locate (op : Str) : Erases (locateHandler E op) (CPE.locateHandler E op) := by
  unfold Con.locateHandler
  refine .missing _ _ (.missing _ _ ?_)
  have bind_pure : ∀ m : M (CPE.World δ ω) (Option (Str × Impl δ ω)), (m >>= fun r => pure r) = m := by
    intro m
    funext w
    rw [M.bind_def]
    cases m w with
    | mk o y => cases o <;> rfl
  refine Eq.mp (congrArg (Erases _) (bind_pure (CPE.locateHandler E op))) ?_
  refine (Erases.lift _).bind fun r => ?_
  cases publicMethod E (opOfToken op) with
  | some h => exact .say _ _ (.pure' _)
  | none =>
    cases E.priv (opOfToken op) with
    | some h => exact .say _ _ (.pure' _)
    | none => exact .say _ _ (.pure' _)

theorem Erases.useBody {rec : Str → M (World δ ω) Unit} {rec' : Str → M (CPE.World δ ω) Unit} (h : ∀ t, Erases (rec t) (rec' t))
    (c : HCall) : Erases (useBody E rec c) (CPE.useBody E rec' c) := by
  unfold Con.useBody CPE.useBody
  cases c.params with
  | nil => exact .raise' _
  | cons t ts =>
    intro w l
    simp only [M.read_bind]
    split
    · exact ((Erases.lift _).bind fun _ => (Erases.lift _).bind fun _ => (Erases.lift _).bind fun _ => .pure' _) w l
    · exact ((h t).bind fun _ => .pure' _) w l

theorem ErasesV.option {rec : Str → M (World δ ω) Unit} {rec' : Str → M (CPE.World δ ω) Unit} (h : ∀ t, Erases (rec t) (rec' t))
    (r s : Str) (hp : Str × List Str) (k : Str) : ErasesV (processOption E P rec r s hp k) (CPE.processOption E rec' r s k) := by
  have bnd : ∀ {α β γ : Type} {m : M (World δ ω) α} {m' : M (CPE.World δ ω) α} {f : α → M (World δ ω) β}
      {f' : α → M (CPE.World δ ω) γ}, Erases m m' → (∀ a, ErasesV (f a) (f' a)) → ErasesV (m >>= f) (m' >>= f') := by
    intro α β γ m m' f f' hm hf w l
    have := hm w l
    rw [M.bind_def, M.bind_def]
    cases hm : m (w, l) with
    | mk o x =>
      cases hm' : m' w with
      | mk o' w' =>
        rw [hm, hm'] at this
        obtain ⟨h1, h2⟩ := this
        dsimp only at h1 h2
        subst h2 h1
        cases o
        · exact hf _ _ _
        · exact ⟨rfl, rfl⟩
        · exact ⟨rfl, rfl⟩
  have sy : ∀ {β γ : Type} {k : Nat} {t : Str} {f : Unit → M (World δ ω) β} {f' : M (CPE.World δ ω) γ},
      ErasesV (f ()) f' → ErasesV (say E k t >>= f) f' := by
    intro β γ k t f f' hf
    exact bnd (f' := fun _ => f') (Erases.say' k t) fun _ => hf
  unfold Con.processOption CPE.processOption
  refine bnd (Erases.ofExcept _) fun v => sy <| sy <| sy <| bnd (Erases.lift _) fun _ => bnd (Erases.ofExcept _) fun toks => ?_
  cases toks with
  | nil => exact (Erases.raise' _).void
  | cons t ps =>
    dsimp only
    split
    · exact (Erases.generic _ _ _ _ _).void.value _
    · refine bnd (Erases.lift _) fun _ => sy <| sy <| sy <| bnd (Erases.locate _) fun hh => ?_
      cases hh with
      | none => exact (Erases.generic _ _ _ _ _).void.value _
      | some x =>
        obtain ⟨name, impl⟩ := x
        cases impl with
        | user g => exact (Erases.callHandler _ _).void.value _
        | use => exact (Erases.opHandler rfl rfl rfl (Erases.useBody h _)).void.value _

theorem Erases.options {rec : Str → M (World δ ω) Unit} {rec' : Str → M (CPE.World δ ω) Unit} (h : ∀ t, Erases (rec t) (rec' t))
    (r s : Str) (hp : Str × List Str) (ks : List Str) :
    Erases (processOptions E P rec r s hp ks) (M.forEach ks (CPE.processOption E rec' r s)) := by
  induction ks generalizing hp with
  | nil => exact .pure' ()
  | cons k ks ih =>
    rw [M.forEach_cons]
    exact ((ErasesV.option h r s hp k).bind fun hp' _ => (ih hp').void).unit

theorem Erases.main {rec : Str → M (World δ ω) Unit} {rec' : Str → M (CPE.World δ ω) Unit} (h : ∀ t, Erases (rec t) (rec' t))
    (r s : Str) (fin : Bool) : Erases (parseMain E P rec r s fin) (CPE.parseMain E rec' r s fin) := by
  unfold Con.parseMain CPE.parseMain
  refine .say _ _ <| (Erases.lift _).bind fun _ => ?_
  cases E.cfg.optionNames s with
  | none => exact .raise' _
  | some keys =>
    dsimp only
    refine (Erases.lift _).bind fun _ => (Erases.lift _).bind fun _ => (Erases.options h r s _ keys).bind fun _ => ?_
    have tail : Erases (do
        let w ← M.read
        if s ∈ w.1.processed then
          Con.lift (M.modify fun w => { w with processed := setDel w.processed s })
          Con.lift (logAdd E (.sectionExit s))
          Con.say E 1 (py!"Exit section: `" ++ s ++ py!"`")
        else M.raise .keyError : M (World δ ω) Unit) (do
        let w ← M.read
        if s ∈ w.processed then
          M.modify fun w => { w with processed := setDel w.processed s }
          logAdd E (.sectionExit s)
        else M.raise .keyError : M (CPE.World δ ω) Unit) := by
      intro w l
      simp only [M.read_bind]
      split
      · have hl : Erases (Con.lift (logAdd E (.sectionExit s)) >>= fun _ => Con.say E 1 (py!"Exit section: `" ++ s ++ py!"`"))
            (logAdd E (.sectionExit s)) := by
          have := (Erases.lift (logAdd E (.sectionExit s))).bind (f' := fun _ => pure ())
            fun _ => Erases.say' (E := E) 1 (py!"Exit section: `" ++ s ++ py!"`")
          exact this
        exact ((Erases.lift _).bind fun _ => hl) w l
      · exact ⟨rfl, rfl⟩
    split
    · exact (Erases.callHandler _ _).bind fun _ => tail
    · exact tail

theorem Erases.parseR (n : Nat) (r s : Str) (init fin : Bool) :
    Erases (parseR E P n r s init fin) (CPE.parseR E n r s init fin) := by
  induction n generalizing s init fin with
  | zero => exact fun _ _ => ⟨rfl, rfl⟩
  | succ n ih =>
    rw [Con.parseR, CPE.parseR]
    have hm := Erases.main (E := E) (P := P) (fun t => ih t true false) r s fin
    split
    · refine (Erases.callHandler _ _).bind fun _ => ?_
      split
      · exact (ih _ _ _).bind fun _ => hm
      · exact hm
    · exact hm

theorem Erases.parseRoot (n : Nat) (s : Str) (init fin : Bool) :
    Erases (parseRoot E P n s init fin) (CPE.parseRoot E n s init fin) := by
  unfold Con.parseRoot CPE.parseRoot
  refine (Erases.lift _).bind fun _ => (Erases.parseR _ _ _ _ _).bind fun _ => ?_
  exact fun w l => ⟨rfl, rfl⟩

/-- A whole parse gives the same result and the same object. -/
theorem parseSection_erases (n : Nat) (s : Str) (init fin : Bool) (o : Obj δ ω) (l : List Printed) :
    (parseSection E P n s init fin (o.toWorld, l)).1 = (CPE.parseSection E n s init fin o).1 ∧
    (parseSection E P n s init fin (o.toWorld, l)).2.1 = (CPE.parseSection E n s init fin o).2.toWorld := by
  have key : Erases (parseSection E P n s init fin) (do
      M.modify fun w : CPE.World δ ω => { w with log := [] }
      if s = [] then M.raise .valueError else CPE.parseRoot E n s init fin) := by
    unfold Con.parseSection sayBanner
    refine (Erases.lift _).bind fun _ => ?_
    simp only [M.bind_assoc]
    refine .say _ _ <| .say _ _ <| .say _ _ ?_
    split
    · exact .raise' _
    · have bind_pure : ∀ m : M (CPE.World δ ω) δ, (m >>= fun r => pure r) = m := by
        intro m
        funext w
        rw [M.bind_def]
        cases m w with
        | mk o y => cases o <;> rfl
      rw [← bind_pure (CPE.parseRoot E n s init fin)]
      exact (Erases.parseRoot _ _ _ _).bind fun _ => .say _ _ <| .say _ _ <| .say _ _ <| .pure' _
  have := key o.toWorld l
  rw [this.1, this.2]
  unfold CPE.parseSection
  simp only [M.modify_bind]
  split
  · exact ⟨rfl, rfl⟩
  · rw [M.bind_def]
    unfold liftW
    dsimp only
    cases CPE.parseRoot E n s init fin { o.toWorld with log := [] } with
    | mk x y => cases x <;> exact ⟨rfl, rfl⟩

end

/-! ### Levels -/

/-- The same object, and of what is printed what level `d` lets through. -/
def Lower (d : Nat) (w w' : World δ ω) : Prop := Same true w.1 w'.1 ∧ w'.2 = w.2.filter (allowed d)

section
variable {E : Env δ ω} {P : Printer δ} {d : Nat}

theorem two_lift {α : Type} {m m' : M (CPE.World δ ω) α} (h : Two false (Same true) m m') :
    Two false (Lower d) (lift m) (lift m') := by
  rintro ⟨w, l⟩ ⟨w', l'⟩ ⟨hs, hl⟩ _
  have := h w w' hs (fun h => by cases h)
  refine ⟨this.1, this.2, ?_⟩
  dsimp only [Con.lift] at hl ⊢
  rw [this.2.out rfl, hs.out rfl, List.filter_append, ← hl]
  congr 1
  rw [List.filter_eq_self.2]
  intro x hx
  simp only [List.mem_map] at hx
  obtain ⟨n, _, rfl⟩ := hx
  rfl

variable (hd : d ≤ E.debug)
include hd

theorem two_say (k : Nat) (t : Str) : Two false (Lower d) (say E k t) (say { E with debug := d } k t) := by
  rintro ⟨w, l⟩ ⟨w', l'⟩ ⟨hs, hl⟩ _
  have text : ∀ E' : Env δ ω, (∀ x : World δ ω, say E' k t x = (.ok (), x.1, if k ≤ E'.debug then
      x.2 ++ [.debug k (if 0 < k then py!"[D-" ++ DbgState.decimal k ++ py!"] " ++ t ++ py!"\n" else t ++ py!"\n")] else x.2)) := by
    intro E' x
    unfold Con.say DbgState.debugMessage DbgState.getLevel
    dsimp only
    by_cases h1 : k ≤ E'.debug
    · have h1' : (E'.debug : Int) ≥ (k : Int) := by omega
      by_cases h2 : 0 < k
      · have h2' : (k : Int) > 0 := by omega
        simp [h1, h2]
      · have h2' : ¬ (k : Int) > 0 := by omega
        simp [h1, h2]
    · have h1' : ¬ (E'.debug : Int) ≥ (k : Int) := by omega
      simp [h1]
  rw [text E, text { E with debug := d }]
  refine ⟨rfl, hs, ?_⟩
  dsimp only at hl ⊢
  by_cases h1 : k ≤ d
  · have h2 : k ≤ E.debug := by omega
    rw [if_pos h1, if_pos h2, List.filter_append, hl]
    simp [allowed, h1]
  · rw [if_neg h1]
    split
    · rw [List.filter_append, hl]; simp [allowed, h1]
    · exact hl

theorem two_says {α : Type} (k : Nat) (t : Str) {f f' : Unit → M (World δ ω) α} (hf : Two false (Lower d) (f ()) (f' ())) :
    Two false (Lower d) (say E k t >>= f) (say { E with debug := d } k t >>= f') :=
  (two_say hd k t).bind fun _ => hf

theorem two_enter (c : HCall) : Two false (Lower d) (enterHandler E P c) (enterHandler { E with debug := d } P c) := by
  refine two_says hd _ _ <| two_says hd _ _ <| two_says hd _ _ <| two_says hd _ _ <| two_says hd _ _ <|
    Two.readBind fun w w' h => ?_
  rw [h.1.shared, h.1.processed]
  exact two_says hd _ _ <| two_says hd _ _ <| two_lift
    (Two.log (lv := E.level) (sw := E.silentWarnings) (cw := E.compactWarnings) (dbg := d) (pv := E.priv) _)

theorem two_exit (c : HCall) : Two false (Lower d) (exitHandler E P c) (exitHandler { E with debug := d } P c) := by
  refine two_says hd _ _ <| two_says hd _ _ <| Two.readBind fun w w' h => ?_
  rw [h.1.shared, h.1.processed]
  exact two_says hd _ _ <| two_says hd _ _ <| two_lift
    (Two.log (lv := E.level) (sw := E.silentWarnings) (cw := E.compactWarnings) (dbg := d) (pv := E.priv) _)

theorem two_check (name : Str) (r : Ret) : Two false (Lower d) (checkRval E name r) (checkRval { E with debug := d } name r) := by
  cases r
  · exact two_says hd _ _ <| two_lift (Two.checkRval (.ofEvents (ecEvent_debug E d)) _)
  · exact two_lift (Two.checkRval (.ofEvents (ecEvent_debug E d)) _)

theorem two_opHandler (c : HCall) {m m' : M (World δ ω) Ret} (h : Two false (Lower d) m m') :
    Two false (Lower d) (operationHandler E P c m) (operationHandler { E with debug := d } P c m') :=
  (two_enter hd c).bind fun _ => h.bind fun r => (two_exit hd c).bind fun _ => two_check hd _ r

theorem two_callHandler (h : Handler δ ω) (c : HCall) :
    Two false (Lower d) (callHandler E P h c) (callHandler { E with debug := d } P h c) := by
  unfold Con.callHandler
  split
  · exact two_opHandler hd c (two_lift (Two.body h c))
  · exact (two_lift (Two.body h c)).bind fun _ => .pure' ()

theorem two_generic (hp : Str × List Str) (r s k : Str) (v : Option Str) :
    Two false (Lower d) (launchGeneric E P hp r s k v) (launchGeneric { E with debug := d } P hp r s k v) :=
  (two_lift (Two.store r k v)).bind fun _ => two_opHandler hd _ (.pure' _)

theorem two_missing (b : Bool) (name : Str) :
    Two false (Lower d) (sayMissing E b name) (sayMissing { E with debug := d } b name) := by
  unfold sayMissing
  split
  · exact .pure' ()
  · exact two_say hd _ _

theorem two_locate (op : Str) : Two false (Lower d) (locateHandler E op) (locateHandler { E with debug := d } op) := by
  unfold Con.locateHandler
  refine (two_missing hd _ _).bind fun _ => (two_missing hd _ _).bind fun _ =>
    (two_lift ((Tuned.ofEvents (ecEvent_debug E d)).loc op)).bind fun r => ?_
  change Two false (Lower d) _ (match publicMethod E (opOfToken op), E.priv (opOfToken op) with
    | some _, _ => _ | none, some _ => _ | none, none => _)
  cases publicMethod E (opOfToken op) with
  | some h => exact two_says hd _ _ (.pure' _)
  | none =>
    cases E.priv (opOfToken op) with
    | some h => exact two_says hd _ _ (.pure' _)
    | none => exact two_says hd _ _ (.pure' _)

omit hd in
theorem two_useBody {rec rec' : Str → M (World δ ω) Unit} (h : ∀ t, Two false (Lower d) (rec t) (rec' t)) (c : HCall) :
    Two false (Lower d) (useBody E rec c) (useBody { E with debug := d } rec' c) := by
  unfold Con.useBody
  cases c.params with
  | nil => exact .raise' _
  | cons t ts =>
    refine Two.readBind fun w w' hw => ?_
    rw [hw.1.processed]
    split
    · exact (two_lift (Two.log (lv := E.level) (sw := E.silentWarnings) (cw := E.compactWarnings) (dbg := d) (pv := E.priv) _)).bind
        fun _ => (two_lift (Two.log (lv := E.level) (sw := E.silentWarnings) (cw := E.compactWarnings) (dbg := d) (pv := E.priv) _)).bind
        fun _ => (two_lift (ecEvent_debug E d _ _)).bind fun _ => .pure' _
    · exact (h t).bind fun _ => .pure' _

theorem two_option {rec rec' : Str → M (World δ ω) Unit} (h : ∀ t, Two false (Lower d) (rec t) (rec' t))
    (r s : Str) (hp : Str × List Str) (k : Str) :
    Two false (Lower d) (processOption E P rec r s hp k) (processOption { E with debug := d } P rec' r s hp k) := by
  unfold Con.processOption
  refine (Two.ofExcept _).bind fun v => two_says hd _ _ <| two_says hd _ _ <| two_says hd _ _ <|
    (two_lift (Two.log (lv := E.level) (sw := E.silentWarnings) (cw := E.compactWarnings) (dbg := d) (pv := E.priv) _)).bind
    fun _ => (Two.ofExcept _).bind fun toks => ?_
  cases toks with
  | nil => exact .raise' _
  | cons t ps =>
    dsimp only
    split
    · exact (two_generic hd _ _ _ _ _).bind fun _ => .pure' _
    · refine (two_lift (Two.log (lv := E.level) (sw := E.silentWarnings) (cw := E.compactWarnings) (dbg := d) (pv := E.priv) _)).bind
        fun _ => two_says hd _ _ <| two_says hd _ _ <| two_says hd _ _ <| (two_locate hd _).bind fun hh => ?_
      cases hh with
      | none => exact (two_generic hd _ _ _ _ _).bind fun _ => .pure' _
      | some x =>
        obtain ⟨name, impl⟩ := x
        cases impl with
        | user g => exact (two_callHandler hd _ _).bind fun _ => .pure' _
        | use => exact (two_opHandler hd _ (two_useBody h _)).bind fun _ => .pure' _

theorem two_options {rec rec' : Str → M (World δ ω) Unit} (h : ∀ t, Two false (Lower d) (rec t) (rec' t))
    (r s : Str) (hp : Str × List Str) (ks : List Str) :
    Two false (Lower d) (processOptions E P rec r s hp ks) (processOptions { E with debug := d } P rec' r s hp ks) := by
  induction ks generalizing hp with
  | nil => exact .pure' ()
  | cons k ks ih => exact (two_option hd h r s hp k).bind fun hp' => ih hp'

theorem two_main {rec rec' : Str → M (World δ ω) Unit} (h : ∀ t, Two false (Lower d) (rec t) (rec' t))
    (r s : Str) (fin : Bool) :
    Two false (Lower d) (parseMain E P rec r s fin) (parseMain { E with debug := d } P rec' r s fin) := by
  unfold Con.parseMain
  refine two_says hd _ _ <|
    (two_lift (Two.log (lv := E.level) (sw := E.silentWarnings) (cw := E.compactWarnings) (dbg := d) (pv := E.priv) _)).bind fun _ => ?_
  change Two false (Lower d) _ (match E.cfg.optionNames s with | none => _ | some _ => _)
  cases ho : E.cfg.optionNames s with
  | none => exact .raise' _
  | some keys =>
    dsimp only
    refine (two_lift (Two.add s)).bind fun _ => (two_lift (Two.proc fun p => setAdd p s)).bind fun _ =>
      (two_options hd h r s _ keys).bind fun _ => ?_
    have tail : ∀ w w' : World δ ω, Lower d w w' → Two false (Lower d) (if s ∈ w.1.processed then (do
          Con.lift (M.modify fun w => { w with processed := setDel w.processed s })
          Con.lift (logAdd E (.sectionExit s))
          Con.say E 1 (py!"Exit section: `" ++ s ++ py!"`"))
        else M.raise .keyError : M (World δ ω) Unit) (if s ∈ w'.1.processed then (do
          Con.lift (M.modify fun w => { w with processed := setDel w.processed s })
          Con.lift (logAdd { E with debug := d } (.sectionExit s))
          Con.say { E with debug := d } 1 (py!"Exit section: `" ++ s ++ py!"`"))
        else M.raise .keyError : M (World δ ω) Unit) := by
      intro w w' hw
      rw [hw.1.processed]
      split
      · exact (two_lift (Two.proc fun p => setDel p s)).bind fun _ =>
          (two_lift (Two.log (lv := E.level) (sw := E.silentWarnings) (cw := E.compactWarnings) (dbg := d) (pv := E.priv) _)).bind
          fun _ => two_say hd _ _
      · exact .raise' _
    split
    · exact (two_callHandler hd _ _).bind fun _ => Two.readBind tail
    · exact Two.readBind tail

theorem two_parseR (n : Nat) (r s : Str) (init fin : Bool) :
    Two false (Lower d) (parseR E P n r s init fin) (parseR { E with debug := d } P n r s init fin) := by
  induction n generalizing s init fin with
  | zero => exact fun w w' h _ => ⟨rfl, h⟩
  | succ n ih =>
    rw [Con.parseR, Con.parseR]
    have hm := two_main (P := P) hd (fun t => ih t true false) r s fin
    split
    · refine (two_callHandler hd _ _).bind fun _ => ?_
      change Two false (Lower d) _ (if E.cfg.hasSection E.defaultName = true then _ else _)
      split
      · exact (ih _ _ _).bind fun _ => hm
      · exact hm
    · exact hm

theorem two_parseSection (n : Nat) (s : Str) (init fin : Bool) :
    Two false (Lower d) (parseSection E P n s init fin) (parseSection { E with debug := d } P n s init fin) := by
  unfold Con.parseSection Con.sayBanner
  refine (two_lift (Two.modify' fun w w' h => ?_)).bind fun _ => ?_
  · obtain ⟨h1, h2, h3, h4, h5, h6⟩ := h
    exact ⟨h1, h2, h3, h4, h5, h6⟩
  simp only [M.bind_assoc]
  refine two_says hd _ _ <| two_says hd _ _ <| two_says hd _ _ ?_
  split
  · exact .raise' _
  · refine Two.bind ?_ fun _ => two_says hd _ _ <| two_says hd _ _ <| two_says hd _ _ <| .pure' _
    unfold Con.parseRoot
    refine (two_lift (Two.modify' fun w w' h => ?_)).bind fun _ => (two_parseR hd n s s init fin).bind fun _ =>
      Two.readBind fun w w' h => ?_
    · obtain ⟨h1, h2, h3, h4, h5, h6⟩ := h
      exact ⟨h1, by simp [h2], rfl, h4, rfl, h6⟩
    · rw [h.1.shared]; exact .pure' _

end
end CPE.Con
