import Verif.Proofs.Graph
/-
Two runs of the same code under different settings (exception level, warning flags, debug level).
-/
namespace CPE
open Spec
variable {δ ω : Type}

/-- The same class and file with other settings and other private methods. -/
def Env.tune (E : Env δ ω) (lv : Nat) (sw cw : Bool) (dbg : Nat) (pv : Str → Option (Impl δ ω)) : Env δ ω :=
  { E with level := lv, silentWarnings := sw, compactWarnings := cw, debug := dbg, priv := pv }

/-- From related states: the same outcome and related states (when `strict`, if the first run succeeds). -/
def Two {W α : Type} (strict : Bool) (R : W → W → Prop) (m m' : M W α) : Prop :=
  ∀ w w', R w w' → (strict = true → ∃ a, (m w).1 = .ok a) → (m' w').1 = (m w).1 ∧ R (m w).2 (m' w').2

theorem Two.bind {W α β : Type} {strict : Bool} {R : W → W → Prop} {m m' : M W α} {f f' : α → M W β}
    (h : Two strict R m m') (hf : ∀ a, Two strict R (f a) (f' a)) : Two strict R (m >>= f) (m' >>= f') := by
  intro w w' hR hs
  have h1 := h w w' hR
  rw [M.bind_def m f] at hs
  rw [M.bind_def m' f', M.bind_def m f]
  cases hm : m w with
  | mk o w1 =>
    cases hm' : m' w' with
    | mk o' w1' =>
      rw [hm] at hs
      rw [hm, hm'] at h1
      dsimp only at h1
      cases o with
      | ok a =>
        obtain ⟨h2, h3⟩ := h1 (fun _ => ⟨a, rfl⟩)
        subst h2
        exact hf a w1 w1' h3 hs
      | exc e =>
        obtain ⟨h2, h3⟩ := h1 (fun h => by obtain ⟨a, ha⟩ := hs h; cases ha)
        subst h2
        exact ⟨rfl, h3⟩
      | diverge =>
        obtain ⟨h2, h3⟩ := h1 (fun h => by obtain ⟨a, ha⟩ := hs h; cases ha)
        subst h2
        exact ⟨rfl, h3⟩

theorem Two.pure' {W α : Type} {strict : Bool} {R : W → W → Prop} (a : α) : Two strict R (pure a : M W α) (pure a) :=
  fun _ _ h _ => ⟨rfl, h⟩

theorem Two.raise' {W α : Type} {strict : Bool} {R : W → W → Prop} (e : PyExc) :
    Two strict R (M.raise e : M W α) (M.raise e) := fun _ _ h _ => ⟨rfl, h⟩

theorem Two.modify' {W : Type} {strict : Bool} {R : W → W → Prop} {f f' : W → W} (h : ∀ w w', R w w' → R (f w) (f' w')) :
    Two strict R (M.modify f) (M.modify f') := fun w w' hR _ => ⟨rfl, h w w' hR⟩

theorem Two.ofExcept {W α : Type} {strict : Bool} {R : W → W → Prop} (x : Except PyExc α) :
    Two strict R (M.ofExcept x : M W α) (M.ofExcept x) := by
  cases x
  · exact .raise' _
  · exact .pure' _

/-- Reading: what follows may depend on the state. -/
theorem Two.readBind {W β : Type} {strict : Bool} {R : W → W → Prop} {f f' : W → M W β}
    (hf : ∀ w w', R w w' → Two strict R (f w) (f' w')) : Two strict R (M.read >>= f) (M.read >>= f') := by
  intro w w' hR hs
  rw [M.read_bind] at hs ⊢
  rw [M.read_bind]
  exact hf w w' hR w w' hR hs

theorem Two.forEach {W ι : Type} {strict : Bool} {R : W → W → Prop} (xs : List ι) {f f' : ι → M W Unit}
    (h : ∀ x, Two strict R (f x) (f' x)) : Two strict R (M.forEach xs f) (M.forEach xs f') := by
  induction xs with
  | nil => exact .pure' ()
  | cons x xs ih => rw [M.forEach_cons, M.forEach_cons]; exact (h x).bind fun _ => ih

/-- The same state, the log apart and, unless `cmp`, the notices apart. -/
structure Same (cmp : Bool) (w w' : World δ ω) : Prop where
  data : w'.data = w.data
  checked : w'.checked = w.checked
  shared : w'.shared = w.shared
  self : w'.self = w.self
  processed : w'.processed = w.processed
  out : cmp = true → w'.out = w.out

/-- What has to be shown about the other settings: events and the lookup of handlers behave alike. -/
structure Tuned (strict cmp : Bool) (E : Env δ ω) (lv : Nat) (sw cw : Bool) (dbg : Nat) (pv : Str → Option (Impl δ ω)) :
    Prop where
  ev : ∀ ev e, Two strict (Same cmp) (ecEvent E ev e) (ecEvent (E.tune lv sw cw dbg pv) ev e)
  loc : ∀ op, Two strict (Same cmp) (locateHandler E op) (locateHandler (E.tune lv sw cw dbg pv) op)

section
variable {E : Env δ ω} {lv : Nat} {sw cw : Bool} {dbg : Nat} {pv : Str → Option (Impl δ ω)} {strict cmp : Bool}

theorem Two.log (l : LogEntry) : Two strict (Same cmp) (logAdd E l) (logAdd (E.tune lv sw cw dbg pv) l) := by
  refine Two.modify' fun w w' h => ?_
  obtain ⟨h1, h2, h3, h4, h5, h6⟩ := h
  split <;> split <;> exact ⟨h1, h2, h3, h4, h5, h6⟩

theorem Two.body (h : Handler δ ω) (c : HCall) : Two strict (Same cmp) (runHandlerBody h c) (runHandlerBody h c) := by
  intro w w' hw _
  obtain ⟨h1, h2, h3, h4, h5, h6⟩ := hw
  refine ⟨?_, ?_⟩
  · unfold runHandlerBody
    rw [h3, h4]
    dsimp only
    split <;> rfl
  · rw [runHandlerBody_world, runHandlerBody_world]
    refine ⟨h1, h2, ?_, ?_, h5, h6⟩ <;> simp [h3, h4]

theorem Two.add (s : Str) : Two strict (Same cmp) (addSection (δ := δ) (ω := ω) s) (addSection s) := by
  refine Two.modify' fun w w' h => ?_
  obtain ⟨h1, h2, h3, h4, h5, h6⟩ := h
  rw [h1]
  split
  · exact ⟨h1, h2, h3, h4, h5, h6⟩
  · exact ⟨rfl, h2, h3, h4, h5, h6⟩

theorem Two.store (r k : Str) (v : Option Str) : Two strict (Same cmp) (dataSet (δ := δ) (ω := ω) r k v) (dataSet r k v) := by
  refine (Two.add r).bind fun _ => Two.modify' fun w w' h => ?_
  obtain ⟨h1, h2, h3, h4, h5, h6⟩ := h
  exact ⟨by simp [h1], h2, h3, h4, h5, h6⟩

theorem Two.proc (f : List Str → List Str) : Two strict (Same cmp)
    (M.modify fun w : World δ ω => { w with processed := f w.processed })
    (M.modify fun w => { w with processed := f w.processed }) := by
  refine Two.modify' fun w w' h => ?_
  obtain ⟨h1, h2, h3, h4, h5, h6⟩ := h
  exact ⟨h1, h2, h3, h4, by simp [h5], h6⟩

variable (hev : Tuned strict cmp E lv sw cw dbg pv)
include hev

theorem Two.checkRval (r : Ret) : Two strict (Same cmp) (checkRval E r) (checkRval (E.tune lv sw cw dbg pv) r) := by
  unfold CPE.checkRval
  cases r with
  | notInt => exact .raise' _
  | int i =>
    dsimp only
    split
    · exact .pure' ()
    · split <;> exact hev.ev _ _

theorem Two.operationHandler (c : HCall) {m m' : M (World δ ω) Ret} (h : Two strict (Same cmp) m m') :
    Two strict (Same cmp) (operationHandler E c m) (operationHandler (E.tune lv sw cw dbg pv) c m') :=
  (Two.log _).bind fun _ => h.bind fun _ => (Two.log _).bind fun _ => Two.checkRval hev _

theorem Two.callHandler (h : Handler δ ω) (c : HCall) :
    Two strict (Same cmp) (callHandler E h c) (callHandler (E.tune lv sw cw dbg pv) h c) := by
  unfold CPE.callHandler
  split
  · exact Two.operationHandler hev c (Two.body h c)
  · exact (Two.body h c).bind fun _ => .pure' ()

theorem Two.launchGeneric (r s k : Str) (v : Option Str) :
    Two strict (Same cmp) (launchGeneric E r s k v) (launchGeneric (E.tune lv sw cw dbg pv) r s k v) :=
  (Two.store r k v).bind fun _ => Two.operationHandler hev _ (.pure' _)

theorem Two.useBody {rec rec' : Str → M (World δ ω) Unit} (h : ∀ t, Two strict (Same cmp) (rec t) (rec' t)) (c : HCall) :
    Two strict (Same cmp) (useBody E rec c) (useBody (E.tune lv sw cw dbg pv) rec' c) := by
  unfold CPE.useBody
  cases c.params with
  | nil => exact .raise' _
  | cons t ts =>
    refine Two.readBind fun w w' hw => ?_
    rw [hw.processed]
    split
    · exact (Two.log _).bind fun _ => (Two.log _).bind fun _ => (hev.ev _ _).bind fun _ => .pure' _
    · exact (h t).bind fun _ => .pure' _

theorem Two.processOption {rec rec' : Str → M (World δ ω) Unit} (h : ∀ t, Two strict (Same cmp) (rec t) (rec' t))
    (r s k : Str) : Two strict (Same cmp) (processOption E rec r s k) (processOption (E.tune lv sw cw dbg pv) rec' r s k) := by
  unfold CPE.processOption
  refine (Two.ofExcept _).bind fun v => (Two.log _).bind fun _ => (Two.ofExcept _).bind fun toks => ?_
  cases toks with
  | nil => exact .raise' _
  | cons t ps =>
    dsimp only
    split
    · exact Two.launchGeneric hev _ _ _ _
    · refine (Two.log _).bind fun _ => (hev.loc _).bind fun hh => ?_
      cases hh with
      | none => exact Two.launchGeneric hev _ _ _ _
      | some x =>
        obtain ⟨name, impl⟩ := x
        cases impl with
        | user g => exact Two.callHandler hev _ _
        | use => exact Two.operationHandler hev _ (Two.useBody hev h _)

theorem Two.parseMain {rec rec' : Str → M (World δ ω) Unit} (h : ∀ t, Two strict (Same cmp) (rec t) (rec' t))
    (r s : Str) (fin : Bool) :
    Two strict (Same cmp) (parseMain E rec r s fin) (parseMain (E.tune lv sw cw dbg pv) rec' r s fin) := by
  unfold CPE.parseMain
  refine (Two.log _).bind fun _ => ?_
  change Two strict (Same cmp) _ (match E.cfg.optionNames s with | none => _ | some _ => _)
  cases ho : E.cfg.optionNames s with
  | none => exact .raise' _
  | some keys =>
    dsimp only
    refine (Two.add s).bind fun _ => (Two.proc fun p => setAdd p s).bind fun _ =>
      (Two.forEach keys fun k => Two.processOption hev h r s k).bind fun _ => ?_
    have tail : Two strict (Same cmp) (do
        let w ← M.read
        if s ∈ w.processed then
          M.modify fun w => { w with processed := setDel w.processed s }
          logAdd E (.sectionExit s)
        else M.raise .keyError : M (World δ ω) Unit) (do
        let w ← M.read
        if s ∈ w.processed then
          M.modify fun w => { w with processed := setDel w.processed s }
          logAdd (E.tune lv sw cw dbg pv) (.sectionExit s)
        else M.raise .keyError : M (World δ ω) Unit) := by
      refine Two.readBind fun w w' hw => ?_
      rw [hw.processed]
      split
      · exact (Two.proc fun p => setDel p s).bind fun _ => Two.log _
      · exact .raise' _
    split
    · exact (Two.callHandler hev _ _).bind fun _ => tail
    · exact tail

theorem Two.parseR (n : Nat) (r s : Str) (init fin : Bool) :
    Two strict (Same cmp) (parseR E n r s init fin) (parseR (E.tune lv sw cw dbg pv) n r s init fin) := by
  induction n generalizing s init fin with
  | zero => exact fun w w' h _ => ⟨rfl, h⟩
  | succ n ih =>
    rw [CPE.parseR, CPE.parseR]
    have hm := Two.parseMain hev (fun t => ih t true false) r s fin
    split
    · refine (Two.callHandler hev _ _).bind fun _ => ?_
      change Two strict (Same cmp) _ (if E.cfg.hasSection E.defaultName = true then _ else _)
      split
      · exact (ih _ _ _).bind fun _ => hm
      · exact hm
    · exact hm

/-- Objects: the same, and the same remembered result. -/
def SameObj (cmp : Bool) (o o' : Obj δ ω) : Prop := Same cmp o.toWorld o'.toWorld ∧ o'.lastResult = o.lastResult

theorem Two.parseSection (n : Nat) (s : Str) (i f : Bool) :
    Two strict (SameObj cmp) (parseSection E n s i f) (parseSection (E.tune lv sw cw dbg pv) n s i f) := by
  unfold CPE.parseSection
  refine (Two.modify' fun w w' h => ?_).bind fun _ => ?_
  · obtain ⟨⟨h1, h2, h3, h4, h5, h6⟩, h7⟩ := h
    exact ⟨⟨h1, h2, h3, h4, h5, h6⟩, h7⟩
  · split
    · exact .raise' _
    · have hroot : Two strict (Same cmp) (parseRoot E n s i f) (parseRoot (E.tune lv sw cw dbg pv) n s i f) := by
        unfold parseRoot
        refine (Two.modify' fun w w' h => ?_).bind fun _ => (Two.parseR hev n s s i f).bind fun _ => ?_
        · obtain ⟨h1, h2, h3, h4, h5, h6⟩ := h
          exact ⟨h1, by simp [h2], rfl, h4, rfl, h6⟩
        · refine Two.readBind fun w w' hw => ?_
          rw [hw.shared]; exact .pure' _
      have hl : Two strict (SameObj cmp) (liftW (parseRoot E n s i f)) (liftW (parseRoot (E.tune lv sw cw dbg pv) n s i f)) := by
        intro o o' ho hs
        obtain ⟨h1, h2⟩ := hroot o.toWorld o'.toWorld ho.1 hs
        exact ⟨h1, h2, ho.2⟩
      refine hl.bind fun r => (Two.modify' fun w w' h => ⟨h.1, rfl⟩).bind fun _ => .pure' _

theorem Two.parseOwner (n : Nat) (s : Str) (force : Bool) :
    Two strict (SameObj cmp) (parseOwner E n s force) (parseOwner (E.tune lv sw cw dbg pv) n s force) := by
  unfold CPE.parseOwner
  refine Two.readBind fun w w' hw => ?_
  rw [hw.1.checked]
  split
  · refine (Two.modify' fun w w' h => ?_).bind fun _ => (Two.parseSection hev n s true true).bind fun _ => .pure' _
    obtain ⟨⟨h1, h2, h3, h4, h5, h6⟩, h7⟩ := h
    exact ⟨⟨h1, by simp [h2], h3, h4, h5, h6⟩, h7⟩
  · exact .pure' _

omit hev in
theorem Two.hasSectionNoParse (s : Str) :
    Two strict (SameObj (δ := δ) (ω := ω) cmp) (hasSectionNoParse s) (hasSectionNoParse s) := by
  unfold CPE.hasSectionNoParse
  refine Two.readBind fun w w' hw => ?_
  rw [hw.1.data]; exact .pure' _

theorem Two.edHasSection (n : Nat) (s : Str) :
    Two strict (SameObj cmp) (edHasSection E n s) (edHasSection (E.tune lv sw cw dbg pv) n s) := by
  unfold CPE.edHasSection
  change Two strict (SameObj cmp) _ (if E.cfg.hasSection s = true then _ else _)
  split
  · refine Two.readBind fun w w' hw => ?_
    rw [hw.1.checked]
    split
    · exact (Two.parseOwner hev n s false).bind fun _ => Two.hasSectionNoParse s
    · exact Two.hasSectionNoParse s
  · exact Two.hasSectionNoParse s

omit hev in
theorem Two.edData (s : Str) : Two strict (SameObj (δ := δ) (ω := ω) cmp) (edData s) (edData s) := by
  unfold CPE.edData
  refine Two.readBind fun w w' hw => ?_
  rw [hw.1.data]
  cases Dict.get? w.data s with
  | none => exact .raise' _
  | some d => exact .pure' _

theorem Two.edOptions (n : Nat) (s : Str) :
    Two strict (SameObj cmp) (edOptions E n s) (edOptions (E.tune lv sw cw dbg pv) n s) := by
  refine (Two.edHasSection hev n s).bind fun b => ?_
  split
  · exact .edData s
  · exact .raise' _

theorem Two.edHasOption (n : Nat) (s k : Str) :
    Two strict (SameObj cmp) (edHasOption E n s k) (edHasOption (E.tune lv sw cw dbg pv) n s k) := by
  refine (Two.parseOwner hev n s false).bind fun _ => Two.readBind fun w w' hw => ?_
  rw [hw.1.data]; exact .pure' _

theorem Two.edGet (n : Nat) (s : Str) :
    Two strict (SameObj cmp) (edGet E n s) (edGet (E.tune lv sw cw dbg pv) n s) := by
  refine (Two.parseOwner hev n s false).bind fun _ => (Two.edHasSection hev n s).bind fun b => ?_
  split
  · exact .edData s
  · exact .raise' _

theorem Two.edGetOption (n : Nat) (s k : Str) :
    Two strict (SameObj cmp) (edGetOption E n s k) (edGetOption (E.tune lv sw cw dbg pv) n s k) := by
  refine (Two.parseOwner hev n s false).bind fun _ => (Two.edHasSection hev n s).bind fun b => ?_
  split
  · refine (Two.edHasOption hev n s k).bind fun h => ?_
    split
    · refine (Two.edData s).bind fun d => ?_
      cases Dict.get? d k with
      | none => exact .raise' _
      | some v => exact .pure' _
    · exact .raise' _
  · exact .raise' _

theorem Two.event' (ev : Event) (e : PyExc) :
    Two strict (SameObj cmp) (liftW (ecEvent E ev e)) (liftW (ecEvent (E.tune lv sw cw dbg pv) ev e)) := by
  intro o o' ho hs
  obtain ⟨h1, h2⟩ := hev.ev ev e o.toWorld o'.toWorld ho.1 hs
  exact ⟨h1, h2, ho.2⟩

theorem Two.assertSection (n : Nat) (ops files : List Str) (s : Str) (b : Bool) :
    Two strict (SameObj cmp) (assertSection E n ops files s b) (assertSection (E.tune lv sw cw dbg pv) n ops files s b) := by
  refine (Two.edGet hev n s).bind fun d => ?_
  split
  · exact .pure' _
  · dsimp only
    split
    · exact (Two.event' hev _ _).bind fun _ => .pure' _
    · exact .pure' _

theorem Two.assertLoop (n : Nat) (ops files : List Str) (l : List Str) :
    Two strict (SameObj cmp) (assertLoop E n ops files l) (assertLoop (E.tune lv sw cw dbg pv) n ops files l) := by
  induction l with
  | nil => exact .pure' _
  | cons t l ih =>
    exact (Two.assertSection hev n ops files t false).bind fun _ => ih.bind fun _ => .pure' _

theorem Two.assertFile (n : Nat) (ops files : List Str) :
    Two strict (SameObj cmp) (assertFile E n ops files) (assertFile (E.tune lv sw cw dbg pv) n ops files) := by
  refine (Two.assertLoop hev n ops files _).bind fun b => ?_
  split
  · exact (Two.event' hev _ _).bind fun _ => .pure' _
  · exact .pure' _

theorem Two.edSections (n : Nat) (a : SectionsArg) :
    Two strict (SameObj cmp) (edSections E n a) (edSections (E.tune lv sw cw dbg pv) n a) := by
  unfold CPE.edSections
  cases a with
  | otherType => exact .raise' _
  | otherStr => exact .raise' _
  | no => exact .pure' _
  | yes => exact (Two.forEach _ fun s => Two.parseOwner hev n s false).bind fun _ => .pure' _
  | force => exact (Two.forEach _ fun s => Two.parseOwner hev n s true).bind fun _ => .pure' _

omit hev in
theorem Two.edAddSection (s : Str) (f : Bool) :
    Two strict (SameObj (δ := δ) (ω := ω) cmp) (edAddSection s f) (edAddSection s f) := by
  refine Two.modify' fun w w' h => ?_
  obtain ⟨⟨h1, h2, h3, h4, h5, h6⟩, h7⟩ := h
  rw [h1]
  split
  · exact ⟨⟨rfl, h2, h3, h4, h5, h6⟩, h7⟩
  · exact ⟨⟨h1, h2, h3, h4, h5, h6⟩, h7⟩

theorem Two.edSet (n : Nat) (s k : Str) (v : Option Str) :
    Two strict (SameObj cmp) (edSet E n s k v) (edSet (E.tune lv sw cw dbg pv) n s k v) := by
  have hm : Two strict (SameObj cmp)
      (M.modify fun o : Obj δ ω => { o with data := Dict.set o.data s (Dict.set ((Dict.get? o.data s).getD []) k v) })
      (M.modify fun o => { o with data := Dict.set o.data s (Dict.set ((Dict.get? o.data s).getD []) k v) }) := by
    refine Two.modify' fun w w' h => ?_
    obtain ⟨⟨h1, h2, h3, h4, h5, h6⟩, h7⟩ := h
    exact ⟨⟨by simp [h1], h2, h3, h4, h5, h6⟩, h7⟩
  refine (Two.edHasSection hev n s).bind fun b => ?_
  split
  · exact (Two.edAddSection s false).bind fun _ => hm
  · exact hm

/-- Every client operation. -/
theorem Two.exec (n : Nat) (op : EdOp) :
    Two strict (SameObj cmp) (op.exec E n) (op.exec (E.tune lv sw cw dbg pv) n) := by
  cases op <;> unfold EdOp.exec
  · exact (Two.parseSection hev _ _ _ _).bind fun _ => .pure' _
  · exact ((Two.edSections hev _ _).bind fun _ => .pure' _).bind fun _ => .pure' _
  · exact .pure' _
  · exact .pure' _
  · exact (Two.edSections hev _ _).bind fun _ => .pure' _
  · exact (Two.edHasSection hev _ _).bind fun _ => .pure' _
  · exact (Two.hasSectionNoParse _).bind fun _ => .pure' _
  · exact (Two.edOptions hev _ _).bind fun _ => .pure' _
  · exact (Two.edOptions hev _ _).bind fun _ => .pure' _
  · exact (Two.edHasOption hev _ _ _).bind fun _ => .pure' _
  · exact (Two.edGet hev _ _).bind fun _ => .pure' _
  · exact (Two.edGetOption hev _ _ _).bind fun _ => .pure' _
  · exact ((Two.forEach _ fun s => Two.parseOwner hev n s false).bind fun _ => Two.readBind fun w w' hw => by
      rw [hw.1.data]; exact .pure' _).bind fun _ => .pure' _
  · exact (Two.edOptions hev _ _).bind fun _ => .pure' _
  · exact (Two.assertSection hev _ _ _ _ _).bind fun _ => .pure' _
  · exact (Two.assertFile hev _ _ _).bind fun _ => .pure' _
  · exact (Two.edAddSection _ _).bind fun _ => .pure' _
  · exact (Two.edSet hev _ _ _ _).bind fun _ => .pure' _

end

/-! ### instances -/

theorem fireEvent_out (level : Nat) (silent compact : Bool) (ev : Event) (e : PyExc) :
    (fireEvent level silent compact ev e).1 = if ev.levelReq ≤ level then .exc e else .ok () := by
  unfold fireEvent
  split
  · rfl
  · split
    · split <;> rfl
    · rfl


/-- With the same methods, the lookup behaves alike as soon as the events do. -/
theorem Tuned.ofEvents {E : Env δ ω} {lv : Nat} {sw cw : Bool} {dbg : Nat} {strict cmp : Bool}
    (hev : ∀ ev e, Two strict (Same cmp) (ecEvent E ev e) (ecEvent (E.tune lv sw cw dbg E.priv) ev e)) :
    Tuned strict cmp E lv sw cw dbg E.priv where
  ev := hev
  loc op := by
    unfold CPE.locateHandler
    dsimp only
    have : ∀ (a : Option (Handler δ ω)) (b : Option (Impl δ ω)), Two strict (Same cmp) (match a, b with
      | some h, _ => pure (some (py!"handler_" ++ opOfToken op, Impl.user h))
      | none, some i => pure (some (py!"_handler_" ++ opOfToken op, i))
      | none, none => pure none : M (World δ ω) (Option (Str × Impl δ ω))) (match a, b with
      | some h, _ => pure (some (py!"handler_" ++ opOfToken op, Impl.user h))
      | none, some i => pure (some (py!"_handler_" ++ opOfToken op, i))
      | none, none => pure none) := by
      intro a b
      cases a <;> cases b <;> exact .pure' _
    change Two strict (Same cmp) _ (if (publicMethod E (opOfToken op)).isSome && (E.priv (opOfToken op)).isSome then _ else _)
    split
    · exact (hev _ _).bind fun _ => this _ _
    · exact this _ _

/-- Debug level: nothing but the log can differ. -/
theorem ecEvent_debug (E : Env δ ω) (dbg : Nat) (ev : Event) (e : PyExc) :
    Two false (Same true) (ecEvent E ev e) (ecEvent (E.tune E.level E.silentWarnings E.compactWarnings dbg E.priv) ev e) := by
  intro w w' h _
  obtain ⟨h1, h2, h3, h4, h5, h6⟩ := h
  exact ⟨rfl, h1, h2, h3, h4, h5, fun h => by simp [ecEvent, Env.tune, h6 h]⟩

/-- Warning flags: nothing but the notices can differ. -/
theorem ecEvent_flags (E : Env δ ω) (sw cw : Bool) (dbg : Nat) (ev : Event) (e : PyExc) :
    Two false (Same false) (ecEvent E ev e) (ecEvent (E.tune E.level sw cw dbg E.priv) ev e) := by
  intro w w' h _
  obtain ⟨h1, h2, h3, h4, h5, h6⟩ := h
  refine ⟨?_, h1, h2, h3, h4, h5, fun h => by cases h⟩
  simp only [ecEvent, Env.tune, fireEvent_out]

/-- A lower exception level: a success stays one. -/
theorem ecEvent_level (E : Env δ ω) (lv : Nat) (hl : lv ≤ E.level) (sw cw : Bool) (dbg : Nat) (ev : Event) (e : PyExc) :
    Two true (Same false) (ecEvent E ev e) (ecEvent (E.tune lv sw cw dbg pv) ev e) := by
  intro w w' h hs
  obtain ⟨h1, h2, h3, h4, h5, h6⟩ := h
  obtain ⟨a, ha⟩ := hs rfl
  refine ⟨?_, h1, h2, h3, h4, h5, fun h => by cases h⟩
  simp only [ecEvent, Env.tune, fireEvent_out] at ha ⊢
  by_cases h : ev.levelReq ≤ E.level
  · rw [if_pos h] at ha; cases ha
  · rw [if_neg h, if_neg (by omega)]

end CPE
