import Verif.Proofs.Console
/-
The notices among what is printed, and the levels of the other lines.
-/
namespace CPE.Con
open CPE.Spec CPE.Con.Spec
variable {δ ω : Type}

/-- Only adds to what is printed: the notices of the object, and lines of levels from one to the debug level. -/
def Adds {α : Type} (E : Env δ ω) (m : M (World δ ω) α) : Prop :=
  ∀ w l, ∃ q, (m (w, l)).2.1.out = w.out ++ noticesOf q ∧ (m (w, l)).2.2 = l ++ q ∧
    ∀ k t, Printed.debug k t ∈ q → 1 ≤ k ∧ k ≤ E.debug

/-- Adds notices. -/
def Grows {α : Type} (m : M (CPE.World δ ω) α) : Prop := ∀ w, ∃ p, (m w).2.out = w.out ++ p

section
variable {E : Env δ ω} {P : Printer δ}

theorem noticesOf_append (a b : List Printed) : noticesOf (a ++ b) = noticesOf a ++ noticesOf b := by simp [noticesOf]

theorem Adds.bind {α β : Type} {m : M (World δ ω) α} {f : α → M (World δ ω) β} (h : Adds E m) (hf : ∀ a, Adds E (f a)) :
    Adds E (m >>= f) := by
  intro w l
  obtain ⟨q, h1, h2, h3⟩ := h w l
  rw [M.bind_def]
  cases hm : m (w, l) with
  | mk o x =>
    obtain ⟨w', l'⟩ := x
    rw [hm] at h1 h2
    dsimp only at h1 h2
    cases o with
    | ok a =>
      obtain ⟨q', g1, g2, g3⟩ := hf a w' l'
      refine ⟨q ++ q', ?_, ?_, fun k t hk => ?_⟩
      · rw [g1, h1, noticesOf_append, List.append_assoc]
      · rw [g2, h2, List.append_assoc]
      · rcases List.mem_append.1 hk with hk | hk
        · exact h3 k t hk
        · exact g3 k t hk
    | exc e => exact ⟨q, h1, h2, h3⟩
    | diverge => exact ⟨q, h1, h2, h3⟩

theorem Adds.pure' {α : Type} (a : α) : Adds E (pure a) := fun _ _ => ⟨[], by simp [noticesOf, pure, M.pure], by simp [pure, M.pure], by simp⟩

theorem Adds.raise' {α : Type} (e : PyExc) : Adds (α := α) E (M.raise e) :=
  fun _ _ => ⟨[], by simp [noticesOf, M.raise], by simp [M.raise], by simp⟩

theorem Adds.ofExcept {α : Type} (x : Except PyExc α) : Adds E (M.ofExcept x) := by
  cases x
  · exact .raise' _
  · exact .pure' _

theorem Adds.read {α : Type} {f : World δ ω → M (World δ ω) α} (hf : ∀ w, Adds E (f w)) : Adds E (M.read >>= f) :=
  fun w l => hf (w, l) w l

theorem Adds.lift {α : Type} {m : M (CPE.World δ ω) α} (h : Grows m) : Adds E (lift m) := by
  intro w l
  obtain ⟨p, hp⟩ := h w
  refine ⟨p.map .notice, ?_, ?_, ?_⟩
  · show (m w).2.out = _
    rw [hp]
    congr 1
    have : ∀ p : List Notice, noticesOf (p.map .notice) = p := by
      intro p
      induction p with
      | nil => rfl
      | cons a p ih => exact congrArg (a :: ·) ih
    exact (this p).symm
  · show l ++ ((m w).2.out.drop w.out.length).map .notice = _
    rw [hp]
    simp
  · simp

theorem Adds.say {k : Nat} (hk : 0 < k) (t : Str) : Adds E (say E k t) := by
  intro w l
  unfold Con.say DbgState.debugMessage DbgState.getLevel
  dsimp only
  by_cases h1 : k ≤ E.debug
  · have h1' : (E.debug : Int) ≥ (k : Int) := by omega
    have h2' : (k : Int) > 0 := by omega
    simp only [h1', h2', if_true]
    refine ⟨[_], ?_, rfl, ?_⟩
    · simp [noticesOf]
    · intro k' t' h
      simp only [List.mem_singleton, Printed.debug.injEq] at h
      omega
  · have h1' : ¬ (E.debug : Int) ≥ (k : Int) := by omega
    simp only [h1', if_false]
    exact ⟨[], by simp [noticesOf], by simp, by simp⟩

theorem Adds.says {α : Type} {k : Nat} (hk : 0 < k) (t : Str) {f : Unit → M (World δ ω) α} (h : Adds E (f ())) :
    Adds E (Con.say E k t >>= f) := (Adds.say hk t).bind fun _ => h

theorem Grows.log (e : LogEntry) : Grows (logAdd E e) := by
  intro w
  refine ⟨[], ?_⟩
  unfold logAdd
  simp only [M.modify_apply]
  split <;> simp

theorem Grows.event (ev : Event) (e : PyExc) : Grows (ecEvent E ev e) := fun _ => ⟨_, rfl⟩

theorem Grows.bind {α β : Type} {m : M (CPE.World δ ω) α} {f : α → M (CPE.World δ ω) β} (h : Grows m) (hf : ∀ a, Grows (f a)) :
    Grows (m >>= f) := by
  intro w
  obtain ⟨p, h1⟩ := h w
  rw [M.bind_def]
  cases hm : m w with
  | mk o w' =>
    rw [hm] at h1
    cases o with
    | ok a =>
      obtain ⟨p', g1⟩ := hf a w'
      exact ⟨p ++ p', by dsimp only at h1 ⊢; rw [g1, h1, List.append_assoc]⟩
    | exc e => exact ⟨p, h1⟩
    | diverge => exact ⟨p, h1⟩

theorem Grows.pure' {α : Type} (a : α) : Grows (pure a : M (CPE.World δ ω) α) := fun _ => ⟨[], by simp [pure, M.pure]⟩

theorem Grows.check (r : Ret) : Grows (CPE.checkRval E r) := by
  unfold CPE.checkRval
  cases r with
  | notInt => exact fun _ => ⟨[], by simp [M.raise]⟩
  | int i =>
    dsimp only
    split
    · exact .pure' ()
    · split <;> exact .event _ _

theorem Grows.body (h : Handler δ ω) (c : HCall) : Grows (runHandlerBody h c) := by
  intro w
  rw [runHandlerBody_world]
  exact ⟨[], by simp⟩

theorem Grows.add (s : Str) : Grows (addSection (δ := δ) (ω := ω) s) := by
  intro w
  rw [addSection_apply]
  exact ⟨[], by simp⟩

theorem Grows.store (r k : Str) (v : Option Str) : Grows (dataSet (δ := δ) (ω := ω) r k v) := by
  intro w
  rw [dataSet_apply]
  exact ⟨[], by simp⟩

theorem Grows.locate (op : Str) : Grows (CPE.locateHandler E op) := by
  unfold CPE.locateHandler
  have last : Grows (match publicMethod E (opOfToken op), E.priv (opOfToken op) with
      | some h, _ => pure (some (py!"handler_" ++ opOfToken op, .user h))
      | none, some i => pure (some (py!"_handler_" ++ opOfToken op, i))
      | none, none => pure none : M (CPE.World δ ω) (Option (Str × Impl δ ω))) := by
    split <;> exact .pure' _
  dsimp only
  split
  · exact (Grows.event _ _).bind fun _ => last
  · exact last

theorem Grows.modify {f : CPE.World δ ω → CPE.World δ ω} (h : ∀ w, (f w).out = w.out) : Grows (M.modify f) :=
  fun w => ⟨[], by rw [M.modify_apply]; simp [h]⟩

theorem Adds.enter (c : HCall) : Adds E (enterHandler E P c) :=
  .says (by decide) _ <| .says (by decide) _ <| .says (by decide) _ <| .says (by decide) _ <| .says (by decide) _ <| .read fun _ =>
    .says (by decide) _ <| .says (by decide) _ <| .lift (.log _)

theorem Adds.exit (c : HCall) : Adds E (exitHandler E P c) :=
  .says (by decide) _ <| .says (by decide) _ <| .read fun _ => .says (by decide) _ <| .says (by decide) _ <| .lift (.log _)

theorem Adds.check (name : Str) (r : Ret) : Adds E (checkRval E name r) := by
  cases r
  · exact .says (by decide) _ (.lift (.check _))
  · exact .lift (.check _)

theorem Adds.opHandler (c : HCall) {m : M (World δ ω) Ret} (h : Adds E m) : Adds E (operationHandler E P c m) :=
  (Adds.enter c).bind fun _ => h.bind fun r => (Adds.exit c).bind fun _ => .check _ r

theorem Adds.callHandler (h : Handler δ ω) (c : HCall) : Adds E (callHandler E P h c) := by
  unfold Con.callHandler
  split
  · exact .opHandler c (.lift (.body h c))
  · exact (Adds.lift (.body h c)).bind fun _ => .pure' ()

theorem Adds.generic (hp : Str × List Str) (r s k : Str) (v : Option Str) : Adds E (launchGeneric E P hp r s k v) :=
  (Adds.lift (.store r k v)).bind fun _ => .opHandler _ (.pure' _)

theorem Adds.missing (b : Bool) (name : Str) : Adds E (sayMissing E b name) := by
  unfold sayMissing
  split
  · exact .pure' ()
  · exact .say (by decide) _

theorem Adds.locate (op : Str) : Adds E (locateHandler E op) := by
  unfold Con.locateHandler
  refine (Adds.missing _ _).bind fun _ => (Adds.missing _ _).bind fun _ => (Adds.lift (.locate op)).bind fun r => ?_
  cases publicMethod E (opOfToken op) with
  | some h => exact .says (by decide) _ (.pure' _)
  | none =>
    cases E.priv (opOfToken op) with
    | some h => exact .says (by decide) _ (.pure' _)
    | none => exact .says (by decide) _ (.pure' _)

theorem Adds.useBody {rec : Str → M (World δ ω) Unit} (h : ∀ t, Adds E (rec t)) (c : HCall) : Adds E (useBody E rec c) := by
  unfold Con.useBody
  cases c.params with
  | nil => exact .raise' _
  | cons t ts =>
    refine Adds.read fun w => ?_
    dsimp only
    split
    · exact (Adds.lift (.log _)).bind fun _ => (Adds.lift (.log _)).bind fun _ => (Adds.lift (.event _ _)).bind fun _ => .pure' _
    · exact (h t).bind fun _ => .pure' _

theorem Adds.option {rec : Str → M (World δ ω) Unit} (h : ∀ t, Adds E (rec t)) (r s : Str) (hp : Str × List Str) (k : Str) :
    Adds E (processOption E P rec r s hp k) := by
  unfold Con.processOption
  refine (Adds.ofExcept _).bind fun v => .says (by decide) _ <| .says (by decide) _ <| .says (by decide) _ <|
    (Adds.lift (.log _)).bind fun _ => (Adds.ofExcept _).bind fun toks => ?_
  cases toks with
  | nil => exact .raise' _
  | cons t ps =>
    dsimp only
    split
    · exact (Adds.generic _ _ _ _ _).bind fun _ => .pure' _
    · refine (Adds.lift (.log _)).bind fun _ => .says (by decide) _ <| .says (by decide) _ <| .says (by decide) _ <|
        (Adds.locate _).bind fun hh => ?_
      cases hh with
      | none => exact (Adds.generic _ _ _ _ _).bind fun _ => .pure' _
      | some x =>
        obtain ⟨name, impl⟩ := x
        cases impl with
        | user g => exact (Adds.callHandler _ _).bind fun _ => .pure' _
        | use => exact (Adds.opHandler _ (Adds.useBody h _)).bind fun _ => .pure' _

theorem Adds.options {rec : Str → M (World δ ω) Unit} (h : ∀ t, Adds E (rec t)) (r s : Str) (hp : Str × List Str) (ks : List Str) :
    Adds E (processOptions E P rec r s hp ks) := by
  induction ks generalizing hp with
  | nil => exact .pure' ()
  | cons k ks ih => exact (Adds.option h r s hp k).bind fun hp' => ih hp'

theorem Adds.main {rec : Str → M (World δ ω) Unit} (h : ∀ t, Adds E (rec t)) (r s : Str) (fin : Bool) :
    Adds E (parseMain E P rec r s fin) := by
  unfold Con.parseMain
  refine .says (by decide) _ <| (Adds.lift (.log _)).bind fun _ => ?_
  cases E.cfg.optionNames s with
  | none => exact .raise' _
  | some keys =>
    dsimp only
    refine (Adds.lift (.add s)).bind fun _ => (Adds.lift (Grows.modify (by intro _; rfl))).bind fun _ => (Adds.options h r s _ keys).bind fun _ => ?_
    have tail : ∀ w : World δ ω, Adds E (if s ∈ w.1.processed then (do
          Con.lift (M.modify fun w => { w with processed := setDel w.processed s })
          Con.lift (logAdd E (.sectionExit s))
          Con.say E 1 (py!"Exit section: `" ++ s ++ py!"`"))
        else M.raise .keyError : M (World δ ω) Unit) := by
      intro w
      split
      · exact (Adds.lift (Grows.modify (by intro _; rfl))).bind fun _ => (Adds.lift (.log _)).bind fun _ => .say (by decide) _
      · exact .raise' _
    split
    · exact (Adds.callHandler _ _).bind fun _ => Adds.read tail
    · exact Adds.read tail

theorem Adds.parseR (n : Nat) (r s : Str) (init fin : Bool) : Adds E (parseR E P n r s init fin) := by
  induction n generalizing s init fin with
  | zero => exact fun _ _ => ⟨[], by simp [Con.parseR, noticesOf], by simp [Con.parseR], by simp⟩
  | succ n ih =>
    rw [Con.parseR]
    have hm := Adds.main (P := P) (fun t => ih t true false) r s fin
    split
    · refine (Adds.callHandler _ _).bind fun _ => ?_
      split
      · exact (ih _ _ _).bind fun _ => hm
      · exact hm
    · exact hm

theorem Adds.parseSection (n : Nat) (s : Str) (init fin : Bool) : Adds E (parseSection E P n s init fin) := by
  unfold Con.parseSection Con.sayBanner
  refine (Adds.lift (Grows.modify (by intro _; rfl))).bind fun _ => ?_
  simp only [M.bind_assoc]
  refine .says (by decide) _ <| .says (by decide) _ <| .says (by decide) _ ?_
  split
  · exact .raise' _
  · refine Adds.bind ?_ fun _ => .says (by decide) _ <| .says (by decide) _ <| .says (by decide) _ <| .pure' _
    unfold Con.parseRoot
    exact (Adds.lift (Grows.modify (by intro _; rfl))).bind fun _ => (Adds.parseR n s s init fin).bind fun _ =>
      Adds.read fun w => .pure' _

end
end CPE.Con
