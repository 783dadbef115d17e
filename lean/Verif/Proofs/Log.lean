import Verif.Proofs.Diverge
import Verif.Spec.Log
/-
The log of a successful parse is well nested.
-/
namespace CPE
open Spec
variable {δ ω : Type}

/-- When `m` succeeds it appends to the log something that satisfies `P`. -/
def Logs {α : Type} (P : List LogEntry → Prop) (m : M (World δ ω) α) : Prop :=
  ∀ w a w', m w = (.ok a, w') → ∃ l, w'.log = w.log ++ l ∧ P l

theorem Logs.bind {α β : Type} {m : M (World δ ω) α} {f : α → M (World δ ω) β}
    (h : Logs Nested m) (hf : ∀ a, Logs Nested (f a)) : Logs Nested (m >>= f) := by
  intro w b w' hok
  obtain ⟨a, w1, h1, h2⟩ := bind_ok_inv hok
  obtain ⟨l1, e1, p1⟩ := h w a w1 h1
  obtain ⟨l2, e2, p2⟩ := hf a w1 b w' h2
  exact ⟨l1 ++ l2, by rw [e2, e1, List.append_assoc], .append p1 p2⟩

/-- `m` never touches the log. -/
theorem Logs.silent {α : Type} {m : M (World δ ω) α} (h : ∀ w, (m w).2.log = w.log) : Logs (· = []) m := by
  intro w a w' hok
  refine ⟨[], ?_, rfl⟩
  have := h w
  rw [hok] at this
  simpa using this

theorem Logs.mono {α : Type} {P Q : List LogEntry → Prop} {m : M (World δ ω) α} (h : Logs P m) (hpq : ∀ l, P l → Q l) :
    Logs Q m := by
  intro w a w' hok
  obtain ⟨l, e, p⟩ := h w a w' hok
  exact ⟨l, e, hpq l p⟩

theorem Logs.quiet {α : Type} {m : M (World δ ω) α} (h : ∀ w, (m w).2.log = w.log) : Logs Nested m :=
  (Logs.silent h).mono (by rintro _ rfl; exact .nil)

theorem Logs.logAdd {E : Env δ ω} (hd : 0 < E.debug) (e : LogEntry) : Logs (· = [e]) (logAdd E e) := by
  intro w a w' hok
  unfold CPE.logAdd at hok
  rw [M.modify_apply] at hok
  cases hok
  refine ⟨[e], ?_, rfl⟩
  simp [hd]

theorem Logs.seq {α β : Type} {P Q R : List LogEntry → Prop} {m : M (World δ ω) α} {f : α → M (World δ ω) β}
    (h : Logs P m) (hf : ∀ a, Logs Q (f a)) (hr : ∀ a b, P a → Q b → R (a ++ b)) : Logs R (m >>= f) := by
  intro w b w' hok
  obtain ⟨a, w1, h1, h2⟩ := bind_ok_inv hok
  obtain ⟨l1, e1, p1⟩ := h w a w1 h1
  obtain ⟨l2, e2, p2⟩ := hf a w1 b w' h2
  exact ⟨l1 ++ l2, by rw [e2, e1, List.append_assoc], hr _ _ p1 p2⟩

theorem Logs.checkRval (E : Env δ ω) (r : Ret) : Logs (· = []) (checkRval E r) := by
  apply Logs.silent
  intro w
  unfold CPE.checkRval
  cases r with
  | notInt => rfl
  | int i =>
    dsimp only
    split
    · rfl
    · split <;> rfl

/-- A decorated handler wraps the log of its body. -/
theorem Logs.operationHandler' {E : Env δ ω} (hd : 0 < E.debug) (c : HCall) {m : M (World δ ω) Ret}
    {P : List LogEntry → Prop} (h : Logs P m) :
    Logs (fun l => ∃ i, P i ∧ l = .handlerEntry c.handlerName c.rawKey c.rawValue :: i ++
      [.handlerExit c.handlerName c.rawKey c.rawValue]) (operationHandler E c m) := by
  unfold CPE.operationHandler
  refine Logs.seq (Logs.logAdd hd _) (fun _ => Logs.seq h (fun r => Logs.seq (Logs.logAdd hd _)
    (fun _ => Logs.checkRval E r) (R := (· = [.handlerExit c.handlerName c.rawKey c.rawValue])) ?_)
    (R := fun l => ∃ i, P i ∧ l = i ++ [.handlerExit c.handlerName c.rawKey c.rawValue]) ?_) ?_
  · rintro _ _ rfl rfl; rfl
  · rintro a _ ha rfl; exact ⟨a, ha, rfl⟩
  · rintro _ _ rfl ⟨i, hi, rfl⟩; exact ⟨i, hi, rfl⟩

theorem Logs.operationHandler {E : Env δ ω} (hd : 0 < E.debug) (c : HCall) {m : M (World δ ω) Ret} (h : Logs Nested m) :
    Logs Nested (operationHandler E c m) :=
  (Logs.operationHandler' hd c h).mono (by rintro _ ⟨i, hi, rfl⟩; exact .inHandler _ _ _ hi)

theorem Logs.body (h : Handler δ ω) (c : HCall) : Logs (· = []) (runHandlerBody h c) :=
  Logs.silent fun w => by rw [runHandlerBody_world]

theorem Logs.body' (h : Handler δ ω) (c : HCall) : Logs Nested (runHandlerBody h c) :=
  Logs.quiet fun w => by rw [runHandlerBody_world]

theorem Logs.callHandler {E : Env δ ω} (hd : 0 < E.debug) (h : Handler δ ω) (c : HCall) :
    Logs Nested (callHandler E h c) := by
  unfold CPE.callHandler
  split
  · exact Logs.operationHandler hd c (Logs.body' h c)
  · exact (Logs.body' h c).bind fun _ => Logs.quiet fun _ => rfl

theorem Logs.addSection (s : Str) : Logs Nested (addSection (δ := δ) (ω := ω) s) :=
  Logs.quiet fun w => by rw [addSection_apply]

theorem Logs.launchGeneric {E : Env δ ω} (hd : 0 < E.debug) (r s k : Str) (v : Option Str) :
    Logs Nested (launchGeneric E r s k v) :=
  (Logs.quiet fun w => by rw [dataSet_apply]).bind fun _ =>
    Logs.operationHandler hd _ (Logs.quiet fun _ => rfl)

theorem Logs.use {E : Env δ ω} (hd : 0 < E.debug) {rec : Str → M (World δ ω) Unit} (h : ∀ t, Logs Nested (rec t))
    (c : HCall) : Logs Nested (CPE.operationHandler E c (useBody E rec c)) := by
  have hb : Logs (fun l => Nested l ∨ ∃ b, l = [.cycleDetected c.sectionName b, .handlerExit c.handlerName c.rawKey c.rawValue])
      (useBody E rec c) := by
    unfold useBody
    cases hc : c.params with
    | nil => intro w a w' hok; cases hok
    | cons t ts =>
      dsimp only
      intro w a w' hok
      rw [M.read_bind] at hok
      split at hok
      · refine Logs.seq (Logs.logAdd hd _) (fun _ => Logs.seq (Logs.logAdd hd _)
          (fun _ => Logs.silent (m := ecEvent E .warning .valueError >>= fun _ => (pure (Ret.int 0) : M (World δ ω) Ret)) ?_)
          (R := (· = [.handlerExit c.handlerName c.rawKey c.rawValue])) ?_) ?_ w a w' hok
        · intro w
          rw [M.bind_def]
          generalize hx : ecEvent E .warning .valueError w = x
          obtain ⟨o, w1⟩ := x
          have : w1.log = w.log := by
            have := congrArg (fun p => p.2.log) hx
            exact this.symm
          cases o <;> exact this
        · rintro _ _ rfl rfl; rfl
        · rintro _ _ rfl rfl; exact .inr ⟨c.op, rfl⟩
      · refine Logs.seq (h t) (fun _ => Logs.silent (m := (pure (Ret.int 0) : M (World δ ω) Ret)) fun _ => rfl) ?_ w a w' hok
        rintro a _ ha rfl
        exact .inl (by simpa using ha)
  refine (Logs.operationHandler' hd c hb).mono ?_
  rintro _ ⟨i, hi | ⟨b, rfl⟩, rfl⟩
  · exact .inHandler _ _ _ hi
  · exact .cycle _ _ _ _ _

theorem Logs.locate {E : Env δ ω} (op : Str) : Logs Nested (locateHandler E op) := by
  apply Logs.quiet
  intro w
  unfold locateHandler
  dsimp only
  split
  · rw [M.bind_def]
    generalize hx : ecEvent E .serious .ambiguousHandler w = x
    obtain ⟨o, w1⟩ := x
    have hl : w1.log = w.log := by
      have := congrArg (fun p => p.2.log) hx
      exact this.symm
    cases o with
    | ok a => dsimp only; cases publicMethod E (opOfToken op) <;> cases E.priv (opOfToken op) <;> exact hl
    | exc e => exact hl
    | diverge => exact hl
  · cases publicMethod E (opOfToken op) <;> cases E.priv (opOfToken op) <;> rfl

theorem Logs.ofExcept {α : Type} (x : Except PyExc α) : Logs Nested (M.ofExcept x : M (World δ ω) α) := by
  cases x <;> exact Logs.quiet fun _ => rfl

theorem Logs.processOption {E : Env δ ω} (hd : 0 < E.debug) {rec : Str → M (World δ ω) Unit} (h : ∀ t, Logs Nested (rec t))
    (r s k : Str) : Logs Nested (processOption E rec r s k) := by
  have hl : ∀ e, Nested [e] → Logs Nested (CPE.logAdd E e) := fun e he =>
    (Logs.logAdd hd e).mono (by rintro _ rfl; exact he)
  unfold CPE.processOption
  refine (Logs.ofExcept _).bind fun v => (hl _ (.keyValue _ _)).bind fun _ => (Logs.ofExcept _).bind fun toks => ?_
  cases toks with
  | nil => intro w a w' hok; cases hok
  | cons t ps =>
    dsimp only
    split
    · exact Logs.launchGeneric hd _ _ _ _
    · refine (hl _ (.operation _ _)).bind fun _ => (Logs.locate _).bind fun hh => ?_
      cases hh with
      | none => exact Logs.launchGeneric hd _ _ _ _
      | some x =>
        obtain ⟨name, impl⟩ := x
        cases impl with
        | user g => exact Logs.callHandler hd _ _
        | use => exact Logs.use hd h _

theorem Logs.forEach {ι : Type} (xs : List ι) {f : ι → M (World δ ω) Unit} (h : ∀ x, Logs Nested (f x)) :
    Logs Nested (M.forEach xs f) := by
  induction xs with
  | nil => exact Logs.quiet fun _ => rfl
  | cons x xs ih => rw [M.forEach_cons]; exact (h x).bind fun _ => ih

/-- A section is bracketed by its entry and exit. -/
theorem Logs.parseMain {E : Env δ ω} (hd : 0 < E.debug) {rec : Str → M (World δ ω) Unit} (h : ∀ t, Logs Nested (rec t))
    (r s : Str) (fin : Bool) :
    Logs (fun l => ∃ i, Nested i ∧ l = .sectionEntry s :: i ++ [.sectionExit s]) (parseMain E rec r s fin) := by
  unfold CPE.parseMain
  have tail : Logs (· = [.sectionExit s]) (do
        let w ← M.read
        if s ∈ w.processed then
          M.modify fun w => { w with processed := setDel w.processed s }
          CPE.logAdd E (.sectionExit s)
        else M.raise .keyError : M (World δ ω) Unit) := by
    intro w a w' hok
    rw [M.read_bind] at hok
    split at hok
    · rw [M.modify_bind] at hok
      obtain ⟨l, e, p⟩ := Logs.logAdd hd _ _ _ _ hok
      exact ⟨l, e, p⟩
    · cases hok
  refine Logs.seq (Logs.logAdd hd _) (fun _ => ?_)
    (Q := fun l => ∃ i, Nested i ∧ l = i ++ [.sectionExit s]) ?_
  · cases ho : E.cfg.optionNames s with
    | none => intro w a w' hok; cases hok
    | some keys =>
      dsimp only
      refine Logs.seq (Logs.addSection s) (fun _ => Logs.seq (Logs.quiet fun _ => rfl) (fun _ =>
        Logs.seq (Logs.forEach keys fun k => Logs.processOption hd h r s k) (fun _ => ?_)
          (Q := fun l => ∃ i, Nested i ∧ l = i ++ [.sectionExit s])
          (R := fun l => ∃ i, Nested i ∧ l = i ++ [.sectionExit s]) ?_)
          (R := fun l => ∃ i, Nested i ∧ l = i ++ [.sectionExit s]) ?_) ?_
      · split
        · exact Logs.seq (Logs.callHandler hd _ _) (fun _ => tail) (by
            rintro a _ ha rfl; exact ⟨a, ha, rfl⟩)
        · exact tail.mono (by rintro _ rfl; exact ⟨[], .nil, rfl⟩)
      all_goals
        rintro a _ ha ⟨i, hi, rfl⟩
        exact ⟨a ++ i, .append ha hi, by simp⟩
  · rintro _ _ rfl ⟨i, hi, rfl⟩
    exact ⟨i, hi, rfl⟩

theorem Logs.parseR {E : Env δ ω} (hd : 0 < E.debug) (n : Nat) (r s : Str) (init fin : Bool) :
    Logs Nested (parseR E n r s init fin) := by
  induction n generalizing s init fin with
  | zero => intro w a w' hok; cases hok
  | succ n ih =>
    rw [CPE.parseR]
    have hm := (Logs.parseMain hd (fun t => ih t true false) r s fin).mono (Q := Nested) (by
      rintro _ ⟨i, hi, rfl⟩; exact .inSection _ hi)
    split
    · refine (Logs.callHandler hd _ _).bind fun _ => ?_
      split
      · exact (ih _ _ _).bind fun _ => hm
      · exact hm
    · exact hm

/-- The log of the whole parse of a root. -/
theorem Logs.root {E : Env δ ω} (hd : 0 < E.debug) (n : Nat) (r : Str) (fin : Bool) :
    Logs (fun l => ∃ i j, Nested i ∧ Nested j ∧
        l = (if E.hookInit.decorated = true then
              [.handlerEntry py!"handler_initialize" none none, .handlerExit py!"handler_initialize" none none] else []) ++
            i ++ .sectionEntry r :: j ++ [.sectionExit r])
      (CPE.parseR E n r r true fin) := by
  cases n with
  | zero => intro w a w' hok; cases hok
  | succ n =>
    rw [parseR_succ_init]
    have hm := Logs.parseMain hd (fun t => Logs.parseR hd n r t true false) r r fin
    have hh : Logs (· = (if E.hookInit.decorated = true then
              [.handlerEntry py!"handler_initialize" none none, .handlerExit py!"handler_initialize" none none] else []))
        (CPE.callHandler E E.hookInit { sectionName := r, sectionRoot := r, handlerName := py!"handler_initialize" }) := by
      unfold CPE.callHandler
      split
      · exact (Logs.operationHandler' hd _ (Logs.body _ _)).mono (by rintro _ ⟨_, rfl, rfl⟩; rfl)
      · exact Logs.seq (Logs.body _ _) (fun _ => Logs.silent fun _ => rfl) (by rintro _ _ rfl rfl; rfl)
    refine Logs.seq hh (fun _ => ?_) (Q := fun l => ∃ i j, Nested i ∧ Nested j ∧ l = i ++ .sectionEntry r :: j ++ [.sectionExit r]) ?_
    · dsimp only
      split
      · refine Logs.seq (Logs.parseR hd n r E.defaultName false false) (fun _ => hm) ?_
        rintro a _ ha ⟨j, hj, rfl⟩
        exact ⟨a, j, ha, hj, by simp⟩
      · exact hm.mono (by rintro _ ⟨j, hj, rfl⟩; exact ⟨[], j, .nil, hj, by simp⟩)
    · rintro _ _ rfl ⟨i, j, hi, hj, rfl⟩
      exact ⟨i, j, hi, hj, by simp⟩

end CPE
