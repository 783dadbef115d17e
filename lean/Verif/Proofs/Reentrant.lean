import Verif.Proofs.Unroll
import Verif.Spec.Reentrant
/-
A parse whose handlers use the object follows the events of the file: the model against an evaluation of the events,
with the calls that handlers make as a parameter.
-/
namespace CPE.Re
open CPE CPE.Spec CPE.Re.Spec
variable {δ ω α β : Type}

/-! ### Evaluation of events -/

/-- The calls that handlers make. -/
abbrev Oracle (δ ω : Type) := Str → Bool → Bool → M (View δ ω) δ

def besides (m : M (View δ ω) α) : M (View δ ω) (Except PyExc α) := fun v =>
  match m v with
  | (.ok a, t) => (.ok (.ok a), { t with shared := v.shared })
  | (.exc e, t) => (.ok (.error e), { t with shared := v.shared })
  | (.diverge, t) => (.diverge, { t with shared := v.shared })

def ownerW (oc : Oracle δ ω) (s : Str) : M (View δ ω) Unit := fun v =>
  if s ∈ v.checked then (.ok (), v)
  else (oc s true true >>= fun _ => pure ()) { v with checked := setAdd v.checked s }

def getW (oc : Oracle δ ω) (s : Str) : M (View δ ω) Options := do
  ownerW oc s
  let v ← M.read
  M.ofExcept (collected v s)

def inFileW (E : Env δ ω) (oc : Oracle δ ω) (s : Str) : M (View δ ω) Unit :=
  if E.cfg.hasSection s = true then ownerW oc s else pure ()

def setW (E : Env δ ω) (oc : Oracle δ ω) (s k : Str) (x : Option Str) : M (View δ ω) Unit := do
  inFileW E oc s
  M.modify fun v => written v s k x

def evalProg (E : Env δ ω) (oc : Oracle δ ω) : Prog δ ω → M (View δ ω) Ret
  | .done r => M.ofExcept r
  | .look k => fun v => evalProg E oc (k v.shared v.self) v
  | .put d o k => fun v => evalProg E oc k { v with shared := d, self := o }
  | .level i k => fun v => evalProg E oc k { v with level := (min 5 (max 0 i)).toNat }
  | .parse s i f k => do
    let r ← besides (oc s i f)
    evalProg E oc (k r)
  | .get s k => do
    let r ← besides (getW oc s)
    evalProg E oc (k r)
  | .set s key x k => do
    let r ← besides (setW E oc s key x)
    evalProg E oc (k r)

def put (r : Option PyExc × Core δ ω) (v : View δ ω) : Out Unit × View δ ω := (outcome r.1, { v with toCore := r.2 })

def stepW (E : Env δ ω) (P : HCall → Prog δ ω) (oc : Oracle δ ω) (root : Str) (ev : Ev δ ω) : M (View δ ω) Unit :=
  match ev with
  | .call h hc => evalProg E oc (P hc) >>= fun x v => put (afterwards E h x v) v
  | ev => fun v => put (evStep { E with level := v.level } root ev v.toCore) v

def replayW (E : Env δ ω) (P : HCall → Prog δ ω) (oc : Oracle δ ω) (root : Str) (evs : List (Ev δ ω)) : M (View δ ω) Unit :=
  M.forEach evs (stepW E P oc root)

/-! ### Relating model and evaluation -/

/-- Same outcome, same view; after a success the sections being processed are again those of `path`. -/
def Rel (path : List Str) (m : M (State δ ω) α) (q : M (View δ ω) α) : Prop :=
  ∀ st : State δ ω, (∀ x, x ∈ st.processed ↔ x ∈ path) →
    (m st).1 = (q (viewOf st)).1 ∧ viewOf (m st).2 = (q (viewOf st)).2 ∧
    (∀ a, (m st).1 = .ok a → ∀ x, x ∈ (m st).2.processed ↔ x ∈ path)

/-- The same without the sections. -/
def Same (m : M (State δ ω) α) (q : M (View δ ω) α) : Prop :=
  ∀ st : State δ ω, (m st).1 = (q (viewOf st)).1 ∧ viewOf (m st).2 = (q (viewOf st)).2

theorem Rel.bind {path : List Str} {m : M (State δ ω) α} {q : M (View δ ω) α} {f : α → M (State δ ω) β}
    {g : α → M (View δ ω) β} (h : Rel path m q) (hf : ∀ a, Rel path (f a) (g a)) : Rel path (m >>= f) (q >>= g) := by
  intro st hp
  obtain ⟨h1, h2, h3⟩ := h st hp
  rw [M.bind_def, M.bind_def]
  cases hm : m st with
  | mk o st' =>
    cases hq : q (viewOf st) with
    | mk o' v' =>
      rw [hm] at h1 h2 h3
      rw [hq] at h1 h2
      simp only at h1 h2 h3
      subst h1 h2
      cases o with
      | ok a => exact hf a st' (h3 a rfl)
      | exc e => exact ⟨rfl, rfl, fun _ h => by cases h⟩
      | diverge => exact ⟨rfl, rfl, fun _ h => by cases h⟩

theorem Same.bind {m : M (State δ ω) α} {q : M (View δ ω) α} {f : α → M (State δ ω) β}
    {g : α → M (View δ ω) β} (h : Same m q) (hf : ∀ a, Same (f a) (g a)) : Same (m >>= f) (q >>= g) := by
  intro st
  obtain ⟨h1, h2⟩ := h st
  rw [M.bind_def, M.bind_def]
  cases hm : m st with
  | mk o st' =>
    cases hq : q (viewOf st) with
    | mk o' v' =>
      rw [hm] at h1 h2
      rw [hq] at h1 h2
      simp only at h1 h2
      subst h1 h2
      cases o with
      | ok a => exact hf a st'
      | exc e => exact ⟨rfl, rfl⟩
      | diverge => exact ⟨rfl, rfl⟩

theorem Rel.pure' {path : List Str} (a : α) : Rel (δ := δ) (ω := ω) path (pure a) (pure a) :=
  fun _ hp => ⟨rfl, rfl, fun _ _ => hp⟩

theorem Rel.raise' {path : List Str} (e : PyExc) : Rel (δ := δ) (ω := ω) (α := α) path (M.raise e) (M.raise e) :=
  fun _ _ => ⟨rfl, rfl, fun _ h => by cases h⟩

theorem Rel.congr {path : List Str} {m m' : M (State δ ω) α} {q q' : M (View δ ω) α} (h : Rel path m q)
    (hm : m' = m) (hq : q' = q) : Rel path m' q' := by subst hm hq; exact h

theorem Rel.weaken {path path' : List Str} {m : M (State δ ω) α} {q : M (View δ ω) α} (h : Rel path m q)
    (hp : ∀ x, x ∈ path' ↔ x ∈ path) : Rel path' m q := by
  intro st hst
  obtain ⟨h1, h2, h3⟩ := h st (fun x => (hst x).trans (hp x))
  exact ⟨h1, h2, fun a ha x => (h3 a ha x).trans (hp x).symm⟩

/-- A relation that keeps the sections exactly. -/
theorem rel_of_same {path : List Str} {m : M (State δ ω) α} {q : M (View δ ω) α} (h : Same m q)
    (hk : ∀ st, (m st).2.processed = st.processed) : Rel path m q := by
  intro st hst
  obtain ⟨h1, h2⟩ := h st
  exact ⟨h1, h2, fun _ _ x => by rw [hk]; exact hst x⟩

/-! ### Code that calls no handler -/

theorem replayW_nil {E : Env δ ω} {P : HCall → Prog δ ω} {oc : Oracle δ ω} {root : Str} :
    replayW E P oc root [] = pure () := rfl

theorem replayW_append {E : Env δ ω} {P : HCall → Prog δ ω} {oc : Oracle δ ω} {root : Str} (a b : List (Ev δ ω)) :
    replayW E P oc root (a ++ b) = (replayW E P oc root a >>= fun _ => replayW E P oc root b) :=
  M.forEach_append a b _

theorem stepW_quiet {E : Env δ ω} {P : HCall → Prog δ ω} {oc : Oracle δ ω} {root : Str} {ev : Ev δ ω} (h : Quiet ev)
    (v : View δ ω) : stepW E P oc root ev v = put (evStep { E with level := v.level } root ev v.toCore) v := by
  cases ev <;> first | rfl | exact absurd h id

theorem replayW_quiet {E : Env δ ω} {P : HCall → Prog δ ω} {oc : Oracle δ ω} {root : Str} {evs : List (Ev δ ω)}
    (h : ∀ ev ∈ evs, Quiet ev) (v : View δ ω) :
    replayW E P oc root evs v = put (replay { E with level := v.level } root evs v.toCore) v := by
  induction evs generalizing v with
  | nil => rfl
  | cons ev evs ih =>
    have hs := stepW_quiet (E := E) (P := P) (oc := oc) (root := root) (h ev (by simp)) v
    unfold replayW at ih ⊢
    rw [M.forEach_cons, M.bind_def, hs]
    simp only [replay]
    cases hr : evStep { E with level := v.level } root ev v.toCore with
    | mk o c =>
      cases o with
      | none =>
        simp only [put, outcome]
        rw [ih (fun e he => h e (by simp [he]))]
        rfl
      | some e => rfl

theorem Rel.lift {E : Env δ ω} {P : HCall → Prog δ ω} {oc : Oracle δ ω} {root : Str} {path : List Str} {f : Env δ ω → M (World δ ω) α}
    {a : α} {evs : List (Ev δ ω)} (h : ∀ l, CPE.Sim { E with level := l } root path (f { E with level := l }) a evs)
    (hq : ∀ ev ∈ evs, Quiet ev) : Rel path (lift E f) (replayW E P oc root evs >>= fun _ => pure a) := by
  intro st hst
  obtain ⟨h1, h2, h3⟩ := h st.level st.toWorld hst
  rw [M.bind_def, replayW_quiet hq]
  simp only [Re.lift]
  show _ ∧ _
  have hv : (viewOf st).toCore = st.toCore := rfl
  have hl : (viewOf st).level = st.level := rfl
  rw [hv, hl]
  cases hr : replay { E with level := st.level } root evs st.toCore with
  | mk o c =>
    rw [hr] at h1 h2
    cases o with
    | none =>
      simp only [put, outcome]
      refine ⟨h1, ?_, fun b hb => h3 ?_⟩
      · simp only [viewOf, h2]
        rfl
      · rw [h1]; rfl
    | some e =>
      simp only [put, outcome]
      refine ⟨h1, ?_, fun b hb => ?_⟩
      · simp only [viewOf, h2]
      · rw [h1] at hb; cases hb

theorem Rel.log {E : Env δ ω} {path : List Str} (l : LogEntry) : Rel path (Re.lift E fun E => logAdd E l) (pure ()) :=
  (Rel.lift (P := fun _ => .done (.ok (.int 0))) (oc := fun _ _ _ v => (.diverge, v)) (root := []) (evs := [])
    (fun _ => CPE.Sim.log l) (by simp)).congr rfl rfl

/-! ### Handlers -/

/-- The calls that handlers make are as the oracle says. -/
def Answers (call : Caller δ ω) (oc : Oracle δ ω) : Prop := ∀ s i f, Same (call s i f) (oc s i f)

/-- A section that has been parsed is marked, and marks stay. -/
def Marks (oc : Oracle δ ω) : Prop := ∀ s i f v, s ∈ v.checked → s ∈ (oc s i f v).2.checked

theorem same_aside {m : M (State δ ω) α} {q : M (View δ ω) α} (h : Same m q) : Same (aside m) (besides q) := by
  intro st
  obtain ⟨h1, h2⟩ := h st
  unfold aside besides
  cases hm : m st with
  | mk o st' =>
    cases hq : q (viewOf st) with
    | mk o' v' =>
      rw [hm] at h1 h2
      rw [hq] at h1 h2
      simp only at h1 h2
      subst h1 h2
      cases o <;> exact ⟨rfl, rfl⟩

theorem aside_processed (m : M (State δ ω) α) (st : State δ ω) : (aside m st).2.processed = st.processed := by
  unfold aside
  rcases m st with ⟨o, st'⟩
  cases o <;> rfl

theorem same_owner {call : Caller δ ω} {oc : Oracle δ ω} (h : Answers call oc) (s : Str) :
    Same (ownerParse call s) (ownerW oc s) := by
  intro st
  unfold ownerParse ownerW
  rw [M.read_bind]
  by_cases hs : s ∈ st.checked
  · rw [if_neg (by simp [hs]), if_pos (show s ∈ (viewOf st).checked from hs)]
    exact ⟨rfl, rfl⟩
  · rw [if_pos hs, if_neg (show s ∉ (viewOf st).checked from hs), M.modify_bind]
    exact (h s true true).bind (f := fun _ => pure ()) (g := fun _ => pure ()) (fun _ _ => ⟨rfl, rfl⟩) _

theorem ownerW_marks {oc : Oracle δ ω} (h : Marks oc) (s : Str) (v : View δ ω) :
    s ∈ (ownerW oc s v).2.checked := by
  unfold ownerW
  by_cases hs : s ∈ v.checked
  · rw [if_pos hs]; exact hs
  · rw [if_neg hs, M.bind_def]
    have := h s true true { v with checked := setAdd v.checked s } ((mem_setAdd _ _ _).mpr (.inl rfl))
    cases hc : oc s true true { v with checked := setAdd v.checked s } with
    | mk o v1 =>
      rw [hc] at this
      cases o <;> exact this

theorem ownerParse_known {call : Caller δ ω} {s : Str} {st : State δ ω} (h : s ∈ st.checked) :
    ownerParse call s st = (.ok (), st) := by
  unfold ownerParse
  rw [M.read_bind, if_neg (by simp [h])]
  rfl

theorem same_get {E : Env δ ω} {call : Caller δ ω} {oc : Oracle δ ω} (h : Answers call oc) (hm : Marks oc) (s : Str) :
    Same (dataGet E call s) (getW oc s) := by
  intro st
  unfold dataGet getW
  obtain ⟨h1, h2⟩ := same_owner h s st
  have h3 := ownerW_marks hm s (viewOf st)
  rw [M.bind_def, M.bind_def]
  cases ho : ownerParse call s st with
  | mk o st' =>
    cases hq : ownerW oc s (viewOf st) with
    | mk o' v' =>
      rw [ho] at h1 h2
      rw [hq] at h1 h2 h3
      simp only at h1 h2 h3
      subst h1 h2
      cases o with
      | exc e => exact ⟨rfl, rfl⟩
      | diverge => exact ⟨rfl, rfl⟩
      | ok u =>
        have hk : dataHas E call s st' = (.ok (Dict.mem st'.data s), st') := by
          unfold dataHas parseIfInFile
          by_cases hc : E.cfg.hasSection s = true
          · rw [if_pos hc, M.bind_ok (ownerParse_known (show s ∈ st'.checked from h3))]
            rfl
          · rw [if_neg hc]
            rfl
        simp only []
        rw [M.bind_ok hk, M.read_bind]
        have hd : (viewOf st').data = st'.data := rfl
        cases hg : Dict.get? st'.data s with
        | none => simp [Dict.mem, hg, collected, hd, M.ofExcept]
        | some d =>
          simp only [Dict.mem, hg, collected, hd, M.ofExcept, Option.isSome_some, if_true, M.read_bind]
          exact ⟨rfl, rfl⟩

theorem same_inFile {E : Env δ ω} {call : Caller δ ω} {oc : Oracle δ ω} (h : Answers call oc) (s : Str) :
    Same (parseIfInFile E call s) (inFileW E oc s) := by
  unfold parseIfInFile inFileW
  by_cases hc : E.cfg.hasSection s = true
  · rw [if_pos hc, if_pos hc]; exact same_owner h s
  · rw [if_neg hc, if_neg hc]; exact fun _ => ⟨rfl, rfl⟩

/-- The section is added if it is missing, and the option written. -/
def added (s k : Str) (x : Option Str) (st : State δ ω) : State δ ω :=
  let t : State δ ω := if Dict.mem st.data s = true then st else { st with data := Dict.set st.data s [] }
  { t with data := Dict.set t.data s (Dict.set ((Dict.get? t.data s).getD []) k x) }

theorem same_put {E : Env δ ω} {call : Caller δ ω} {oc : Oracle δ ω} (h : Answers call oc) (s k : Str) (x : Option Str) :
    Same (dataPut E call s k x) (setW E oc s k x) := by
  unfold dataPut setW dataHas
  rw [M.bind_assoc]
  refine (same_inFile h s).bind fun _ st => ?_
  change (Out.ok () = Out.ok ()) ∧ viewOf (added s k x st) = written (viewOf st) s k x
  have hd : (viewOf st).data = st.data := rfl
  unfold written added
  rw [hd]
  cases hg : Dict.get? st.data s with
  | some d => simp [Dict.mem, hg, viewOf]
  | none => simp [Dict.mem, hg, viewOf, Dict.get?_set_self, Dict.set_set]

theorem run_same {E : Env δ ω} {call : Caller δ ω} {oc : Oracle δ ω} (h : Answers call oc) (hm : Marks oc) (p : Prog δ ω) :
    Same (runProg E call p) (evalProg E oc p) ∧ ∀ st, (runProg E call p st).2.processed = st.processed := by
  have hb : ∀ {γ : Type} (m : M (State δ ω) γ) (f : Except PyExc γ → M (State δ ω) Ret),
      (∀ r st, (f r st).2.processed = st.processed) → ∀ st, ((aside m >>= f) st).2.processed = st.processed := by
    intro γ m f hf st
    have := aside_processed m st
    rw [M.bind_def]
    cases ha : aside m st with
    | mk o st' =>
      rw [ha] at this
      cases o with
      | ok r => exact (hf r st').trans this
      | exc e => exact this
      | diverge => exact this
  induction p with
  | done r => cases r <;> exact ⟨fun _ => ⟨rfl, rfl⟩, fun _ => rfl⟩
  | look k ih => exact ⟨fun st => (ih st.shared st.self).1 st, fun st => (ih st.shared st.self).2 st⟩
  | put d o k ih => exact ⟨fun st => ih.1 _, fun st => ih.2 _⟩
  | level i k ih => exact ⟨fun st => ih.1 _, fun st => ih.2 _⟩
  | parse s i f k ih =>
    exact ⟨(same_aside (h s i f)).bind fun r => (ih r).1, hb _ _ fun r => (ih r).2⟩
  | get s k ih =>
    exact ⟨(same_aside (same_get h hm s)).bind fun r => (ih r).1, hb _ _ fun r => (ih r).2⟩
  | set s key x k ih =>
    exact ⟨(same_aside (same_put h s key x)).bind fun r => (ih r).1, hb _ _ fun r => (ih r).2⟩

theorem outcomeV_unit (o : Option PyExc) : outcomeV () o = outcome o := by cases o <;> rfl

theorem Rel.bindConst {path : List Str} {m : M (State δ ω) α} {q : M (View δ ω) Unit} {a : α} {f : α → M (State δ ω) β}
    {q' : M (View δ ω) β} (h : Rel path m (q >>= fun _ => pure a)) (h' : Rel path (f a) q') :
    Rel path (m >>= f) (q >>= fun _ => q') := by
  intro st hp
  obtain ⟨h1, h2, h3⟩ := h st hp
  rw [M.bind_def] at h1 h2
  rw [M.bind_def, M.bind_def]
  cases hm : m st with
  | mk o st' =>
    cases hq : q (viewOf st) with
    | mk o' v' =>
      rw [hm] at h1 h2 h3
      rw [hq] at h1 h2
      simp only at h1 h2 h3
      cases o' with
      | ok u =>
        subst h1
        have h2 : viewOf st' = v' := h2
        subst h2
        exact h' st' (h3 a rfl)
      | exc e => subst h1 h2; exact ⟨rfl, rfl, fun _ h => by cases h⟩
      | diverge => subst h1 h2; exact ⟨rfl, rfl, fun _ h => by cases h⟩

theorem Rel.checked {E : Env δ ω} {path : List Str} (r : Ret) :
    Rel path (Re.lift E fun E => checkRval E r) (fun v => put (onReturn { E with level := v.level } r v.toCore) v) := by
  intro st hst
  obtain ⟨h1, h2, h3, _⟩ := checkRval_apply { E with level := st.level } r st.toWorld
  simp only [Re.lift]
  refine ⟨h1.trans ?_, ?_, fun _ _ x => ?_⟩
  · exact outcomeV_unit _
  · simp only [viewOf, put, h2]
  · rw [h3]; exact hst x

theorem Rel.opHandler {E : Env δ ω} {path : List Str} {c : HCall} {body : M (State δ ω) Ret} {q : M (View δ ω) Ret}
    (h : Rel path body q) :
    Rel path (Re.opHandler E c body) (q >>= fun r v => put (onReturn { E with level := v.level } r v.toCore) v) := by
  unfold Re.opHandler
  have h1 := (Rel.log (E := E) (path := path) (.handlerEntry c.handlerName c.rawKey c.rawValue)).bind fun _ =>
    h.bind fun r => (Rel.log (E := E) (path := path) (.handlerExit c.handlerName c.rawKey c.rawValue)).bind fun _ =>
      Rel.checked (E := E) r
  exact h1.congr rfl rfl

theorem Rel.opHandlerFine {E : Env δ ω} {path : List Str} {c : HCall} {body : M (State δ ω) Ret} {q : M (View δ ω) Unit}
    (h : Rel path body (q >>= fun _ => pure (.int 0))) : Rel path (Re.opHandler E c body) q := by
  refine (Rel.opHandler h).congr rfl ?_
  rw [M.bind_assoc]
  funext v
  rw [M.bind_def]
  rcases q v with ⟨o, v'⟩
  cases o <;> rfl

theorem Rel.call {E : Env δ ω} {P : HCall → Prog δ ω} {call : Caller δ ω} {oc : Oracle δ ω} (ha : Answers call oc)
    (hm : Marks oc) {root : Str} {path : List Str} (h : Handler δ ω) (c : HCall) :
    Rel path (callHandler E P call h c) (stepW E P oc root (.call h c)) := by
  have hr : Rel path (runProg E call (P c)) (evalProg E oc (P c)) :=
    rel_of_same (run_same ha hm (P c)).1 (run_same ha hm (P c)).2
  unfold callHandler stepW
  by_cases hd : h.decorated = true
  · rw [if_pos hd]
    refine (Rel.opHandler hr).congr rfl ?_
    simp only [afterwards, if_pos hd]
  · rw [if_neg hd]
    refine (hr.bind fun _ => Rel.pure' ()).congr rfl ?_
    simp only [afterwards, if_neg hd]
    rfl

theorem replayW_single {E : Env δ ω} {P : HCall → Prog δ ω} {oc : Oracle δ ω} {root : Str} (ev : Ev δ ω) :
    replayW E P oc root [ev] = stepW E P oc root ev := by
  unfold replayW
  rw [M.forEach_cons]
  funext v
  rw [M.bind_def]
  rcases stepW E P oc root ev v with ⟨o, v'⟩
  cases o <;> rfl

theorem bind_unit (q : M (View δ ω) Unit) : (q >>= fun _ => pure ()) = q := by
  funext v
  rw [M.bind_def]
  rcases q v with ⟨o, v'⟩
  cases o <;> rfl

theorem Rel.generic {E : Env δ ω} {P : HCall → Prog δ ω} {oc : Oracle δ ω} {root : Str} {path : List Str} (sec k : Str)
    (v : Option Str) : Rel path (Re.lift E fun E => launchGeneric E root sec k v) (replayW E P oc root [.store k v]) :=
  (Rel.lift (fun _ => CPE.Sim.generic sec k v) (by simp [Quiet])).congr rfl (bind_unit _).symm

theorem Rel.fail {E : Env δ ω} {P : HCall → Prog δ ω} {oc : Oracle δ ω} {root : Str} {path : List Str} (e : PyExc) :
    Rel (α := Unit) path (M.raise e) (replayW E P oc root [.fail e]) :=
  (Rel.raise' e).congr rfl rfl

theorem lift_locate (E : Env δ ω) (o : Str) : (Re.lift E fun E => locateHandler E o) = (Re.lift E fun E' => do
    if (publicHandler E (opOfToken o)).isSome && (E.priv (opOfToken o)).isSome then
      ecEvent E' .serious .ambiguousHandler
    match publicHandler E (opOfToken o), E.priv (opOfToken o) with
    | some h, _ => pure (some (py!"handler_" ++ opOfToken o, .user h))
    | none, some i => pure (some (py!"_handler_" ++ opOfToken o, i))
    | none, none => pure none) := rfl

/-- Dispatch of one option that is not a link. -/
theorem Rel.optionEvents {E : Env δ ω} {P : HCall → Prog δ ω} {call : Caller δ ω} {oc : Oracle δ ω} (ha : Answers call oc)
    (hmk : Marks oc) {root : Str} {path : List Str} {s k : Str} {evs : List (Ev δ ω)}
    (rec : Str → M (State δ ω) Unit) (h : meaning E root s k = .events evs) :
    Rel path (processOption E P call rec root s k) (replayW E P oc root evs) := by
  unfold processOption
  unfold meaning at h
  cases hv : E.cfg.value s k with
  | error e =>
    rw [hv] at h
    cases h
    exact Rel.fail e
  | ok v =>
    rw [hv] at h
    simp only at h
    rw [M.ofExcept_ok_bind]
    dsimp only
    generalize v.map (fun x => stripQuotes (strip x)) = v' at h ⊢
    refine ((Rel.log (.keyValue (strip k) v')).bind (g := fun _ => replayW E P oc root evs) fun _ => ?_).congr rfl rfl
    simp only [tokenizeOptionKey, strip_idem]
    cases hs : shlexSplit (strip k) with
    | error e =>
      rw [hs] at h; cases h
      exact Rel.fail e
    | ok toks =>
      rw [hs] at h
      cases toks with
      | nil => cases h; exact Rel.fail .indexError
      | cons t ps =>
        simp only at h
        show Rel path (if matchesOp t = false then _ else _) _
        by_cases hop : OpWord t
        · have hm : ¬ (matchesOp t = false) := by
            rw [(opWord_iff_matches t).mp hop]; simp
          rw [if_pos hop] at h
          rw [if_neg hm]
          refine ((Rel.log (.operation (opOfToken t) ps)).bind (g := fun _ => replayW E P oc root evs) fun _ => ?_).congr rfl rfl
          rw [lift_locate]
          simp only [opOfToken_eq, opName_idem]
          generalize opName t = op at h
          cases hp : publicHandler E op with
          | none =>
            cases hq : E.priv op with
            | none =>
              rw [hp, hq] at h; cases h
              exact (Rel.generic s _ _).congr rfl rfl
            | some i =>
              rw [hp, hq] at h
              cases i with
              | user g =>
                cases h
                exact (Rel.call ha hmk g _).congr rfl (replayW_single _)
              | use =>
                cases ps with
                | nil =>
                  cases h
                  exact (Rel.opHandlerFine (Rel.raise' .indexError)).congr rfl rfl
                | cons a as => cases h
          | some g =>
            cases hq : E.priv op with
            | none =>
              rw [hp, hq] at h; cases h
              exact (Rel.call ha hmk g _).congr rfl (replayW_single _)
            | some i =>
              rw [hp, hq] at h; cases h
              refine ((Rel.lift (P := P) (oc := oc) (root := root) (evs := [.ambiguous op])
                (a := some (py!"handler_" ++ op, Impl.user g))
                (fun l => ((CPE.Sim.ambiguous op).bind (CPE.Sim.pure' (some (py!"handler_" ++ op, Impl.user g)))).congr rfl rfl)
                (by simp [Quiet])).bindConst
                (f := fun h => match h with
                  | none => Re.lift E fun E => launchGeneric E root s (strip k) v'
                  | some (name, impl) => callImpl E P call rec impl
                    { sectionName := s, sectionRoot := root, rawKey := some (strip k), rawValue := v',
                      op := op, params := ps, value := v', handlerName := name })
                (Rel.call (root := root) ha hmk g _)).congr rfl ?_
              rw [replayW_single]
              unfold replayW
              rw [M.forEach_cons]
              congr 1
              funext _
              exact replayW_single _
        · have hm : matchesOp t = false := by
            cases hb : matchesOp t with
            | false => rfl
            | true => exact absurd ((opWord_iff_matches t).mpr hb) hop
          rw [if_neg hop] at h; cases h
          rw [if_pos hm]
          exact (Rel.generic s _ _).congr rfl rfl

/-- Dispatch of a link. -/
theorem Rel.optionLink {E : Env δ ω} {P : HCall → Prog δ ω} {call : Caller δ ω} {oc : Oracle δ ω} {root : Str} {path : List Str}
    {s k t : Str} {evs : List (Ev δ ω)} (rec : Str → M (State δ ω) Unit) (h : meaning E root s k = .link t)
    (hc : t ∈ path → evs = [.cycle s t]) (hr : t ∉ path → Rel path (rec t) (replayW E P oc root evs)) :
    Rel path (processOption E P call rec root s k) (replayW E P oc root evs) := by
  unfold processOption
  unfold meaning at h
  cases hv : E.cfg.value s k with
  | error e => rw [hv] at h; cases h
  | ok v =>
    rw [hv] at h
    simp only at h
    rw [M.ofExcept_ok_bind]
    dsimp only
    generalize v.map (fun x => stripQuotes (strip x)) = v' at h ⊢
    refine ((Rel.log (.keyValue (strip k) v')).bind (g := fun _ => replayW E P oc root evs) fun _ => ?_).congr rfl rfl
    simp only [tokenizeOptionKey, strip_idem]
    cases hs : shlexSplit (strip k) with
    | error e => rw [hs] at h; cases h
    | ok toks =>
      rw [hs] at h
      cases toks with
      | nil => cases h
      | cons tk ps =>
        simp only at h
        show Rel path (if matchesOp tk = false then _ else _) _
        by_cases hop : OpWord tk
        · have hm : ¬ (matchesOp tk = false) := by
            rw [(opWord_iff_matches tk).mp hop]; simp
          rw [if_pos hop] at h
          rw [if_neg hm]
          refine ((Rel.log (.operation (opOfToken tk) ps)).bind (g := fun _ => replayW E P oc root evs) fun _ => ?_).congr rfl rfl
          rw [lift_locate]
          simp only [opOfToken_eq, opName_idem]
          generalize opName tk = op at h
          cases hp : publicHandler E op with
          | some g =>
            cases hq : E.priv op with
            | none => rw [hp, hq] at h; cases h
            | some i => rw [hp, hq] at h; cases h
          | none =>
            cases hq : E.priv op with
            | none => rw [hp, hq] at h; cases h
            | some i =>
              rw [hp, hq] at h
              cases i with
              | user g => cases h
              | use =>
                cases ps with
                | nil => cases h
                | cons a as =>
                  cases h
                  refine (Rel.opHandlerFine (E := E) (body := useBody E rec _) ?_).congr rfl rfl
                  unfold useBody
                  intro st hst
                  simp only [M.read_bind]
                  by_cases ht : t ∈ path
                  · rw [if_pos ((hst t).mpr ht), hc ht]
                    refine (((Rel.log _).bind fun _ => (Rel.log _).bind fun _ =>
                      (Rel.lift (P := P) (oc := oc) (root := root) (evs := [.cycle s t]) (a := ())
                        (fun _ => CPE.Sim.cycle s t) (by simp [Quiet])).bind fun _ => Rel.pure' (Ret.int 0)).congr rfl ?_) st hst
                    rw [bind_unit]
                    rfl
                  · rw [if_neg (fun hx => ht ((hst t).mp hx))]
                    exact ((hr ht).bind fun _ => Rel.pure' (Ret.int 0)) st hst
        · rw [if_neg hop] at h; cases h

/-! ### Sections -/

theorem Rel.main_missing {E : Env δ ω} {P : HCall → Prog δ ω} {call : Caller δ ω} {oc : Oracle δ ω} {root : Str} {path : List Str}
    {s : Str} {fin : Bool} (rec : Str → M (State δ ω) Unit) (ho : E.cfg.optionNames s = none) (l : List (Ev δ ω)) :
    Rel path (parseMain E P call rec root s fin) (replayW E P oc root ([.missing s] ++ l)) := by
  unfold parseMain
  rw [ho]
  refine ((Rel.log (.sectionEntry s)).bind fun _ => Rel.raise' .keyError).congr rfl rfl

theorem Rel.final {E : Env δ ω} {P : HCall → Prog δ ω} {call : Caller δ ω} {oc : Oracle δ ω} (ha : Answers call oc)
    (hm : Marks oc) {root : Str} {path : List Str} {s : Str} {fin : Bool} :
    Rel path (finalHook E P call root s fin) (replayW E P oc root (finEvents E root s fin)) := by
  unfold finalHook finEvents
  by_cases hf : fin = true ∧ s = root
  · have hf' : (fin && decide (s = root)) = true := by simp [hf]
    rw [if_pos hf, if_pos hf']
    obtain ⟨_, rfl⟩ := hf
    exact (Rel.call ha hm _ _).congr rfl (replayW_single _)
  · have hf' : ¬ (fin && decide (s = root)) = true := by simpa using hf
    rw [if_neg hf, if_neg hf']
    exact Rel.pure' ()

theorem Rel.main {E : Env δ ω} {P : HCall → Prog δ ω} {call : Caller δ ω} {oc : Oracle δ ω} (ha : Answers call oc)
    (hmk : Marks oc) {root : Str} {path : List Str} {s : Str} {keys : List Str} {fin : Bool}
    {evs : List (Ev δ ω)} (rec : Str → M (State δ ω) Unit) (ho : E.cfg.optionNames s = some keys) (hp : s ∉ path)
    (h : Rel (s :: path) (M.forEach keys (processOption E P call rec root s)) (replayW E P oc root evs)) :
    Rel path (parseMain E P call rec root s fin) (replayW E P oc root (.visit s :: evs ++ finEvents E root s fin)) := by
  unfold parseMain
  rw [ho]
  refine ((Rel.log (.sectionEntry s)).bind
    (g := fun _ => replayW E P oc root (.visit s :: evs ++ finEvents E root s fin)) fun _ => ?_).congr rfl rfl
  intro st hst
  have hadd : Re.lift E (fun _ => addSection s) st = (.ok (), { st with data := if (Dict.get? st.data s).isSome then st.data else st.data ++ [(s, [])] }) := by
    unfold Re.lift
    dsimp only
    rw [addSection_apply]
  dsimp only
  rw [M.bind_ok hadd, M.modify_bind]
  have hrep : ∀ l, replayW E P oc root (.visit s :: l) (viewOf st) = replayW E P oc root l
      { viewOf st with data := if (Dict.get? st.data s).isSome then st.data else st.data ++ [(s, [])] } := by
    intro l
    unfold replayW
    rw [M.forEach_cons, M.bind_def, stepW_quiet (by trivial)]
    simp only [put, evStep, outcome]
    by_cases hd : (Dict.get? st.data s).isSome = true
    · have hd' : (Dict.get? (viewOf st).data s).isSome = true := hd
      simp only [hd, hd', if_true]
      rfl
    · have hd' : ¬ (Dict.get? (viewOf st).data s).isSome = true := hd
      simp only [hd, hd']
      rfl
  rw [List.cons_append, hrep]
  generalize hst' : ({ st with data := if (Dict.get? st.data s).isSome then st.data else st.data ++ [(s, [])], processed := setAdd st.processed s } : State δ ω) = st'
  have hc : viewOf st' = { viewOf st with data := if (Dict.get? st.data s).isSome then st.data else st.data ++ [(s, [])] } := by
    rw [← hst']; rfl
  have hpr : ∀ x, x ∈ st'.processed ↔ x ∈ s :: path := by
    intro x
    rw [← hst']
    simp only [mem_setAdd, List.mem_cons, hst]
  have hc' := hc.symm
  dsimp only at hc' ⊢
  rw [hc']
  have hbody := (h.bind fun _ => Rel.final (E := E) (P := P) (root := root) (s := s) (fin := fin) ha hmk) st' hpr
  rw [← replayW_append] at hbody
  unfold leave
  rw [← M.bind_assoc, M.bind_def]
  obtain ⟨k1, k2, k3⟩ := hbody
  generalize hg : (M.forEach keys (processOption E P call rec root s) >>= fun _ => finalHook E P call root s fin) st' = res at k1 k2 k3
  rcases res with ⟨o, st2⟩
  cases hr : replayW E P oc root (evs ++ finEvents E root s fin) (viewOf st') with
  | mk o' v =>
    rw [hr] at k1 k2
    simp only at k1 k2 k3
    subst k1 k2
    cases o with
    | exc e => exact ⟨rfl, rfl, fun _ h => by cases h⟩
    | diverge => exact ⟨rfl, rfl, fun _ h => by cases h⟩
    | ok u =>
      have k3 := k3 u rfl
      have hin : s ∈ st2.processed := (k3 s).mpr (by simp)
      simp only [M.read_bind, if_pos hin, M.modify_bind]
      have hpath : ∀ x, x ∈ setDel st2.processed s ↔ x ∈ path := by
        intro x
        rw [mem_setDel, k3]
        simp only [List.mem_cons]
        constructor
        · rintro ⟨h1 | h1, h2⟩
          · exact absurd h1 h2
          · exact h1
        · intro h1
          exact ⟨.inr h1, fun h2 => hp (h2 ▸ h1)⟩
      exact Rel.log (E := E) (path := path) (.sectionExit s) { st2 with processed := setDel st2.processed s } hpath

/-- The property proved by induction on the unrolling. -/
def RelTask (E : Env δ ω) (P : HCall → Prog δ ω) (call : Caller δ ω) (oc : Oracle δ ω) (root : Str) : Task → List (Ev δ ω) → Prop
  | .sec path s, evs => ∀ n, todo E path ≤ n → s ∉ path → (root ∈ path ∨ root = s ∨ ¬ Reaches E s root) →
      ∀ fin, Rel path (parseMain E P call (fun t => parseR E P call n root t true false) root s fin)
        (replayW E P oc root (evs ++ finEvents E root s fin))
  | .opts path s keys, evs => ∀ n, todo E path + 1 ≤ n → (root ∈ path ∨ ¬ Reaches E s root) →
      (∃ names, E.cfg.optionNames s = some names ∧ ∀ k ∈ keys, k ∈ names) →
      Rel path (M.forEach keys (processOption E P call (fun t => parseR E P call n root t true false) root s))
        (replayW E P oc root evs)

theorem relTask {E : Env δ ω} {P : HCall → Prog δ ω} {call : Caller δ ω} {oc : Oracle δ ω} (ha : Answers call oc)
    (hmk : Marks oc) {root : Str} {task : Task} {evs : List (Ev δ ω)}
    (h : Unrolls E root task evs) : RelTask E P call oc root task evs := by
  induction h with
  | @missing path s ho =>
    intro n _ _ _ fin
    exact Rel.main_missing _ ho _
  | @sec path s keys evs ho _ ih =>
    intro n hn hs hr fin
    have hs' : s ∈ E.cfg.allNames := (Cfg.optionNames_isSome _ _).mp (by simp [ho])
    have hlt := todo_cons_lt hs' hs
    refine Rel.main ha hmk _ ho hs (ih n (by omega) ?_ ⟨keys, ho, fun _ h => h⟩)
    rcases hr with h | h | h
    · exact .inl (by simp [h])
    · exact .inl (by simp [h])
    · exact .inr h
  | nil =>
    intro n _ _ _
    exact Rel.pure' ()
  | @plain path s k ks evs rest hm _ ih =>
    intro n hn hr ⟨names, ho, hk⟩
    rw [M.forEach_cons, replayW_append]
    exact (Rel.optionEvents ha hmk _ hm).bind fun _ => ih n hn hr ⟨names, ho, fun k h => hk k (by simp [h])⟩
  | @cyclic path s k ks t rest hm hp _ ih =>
    intro n hn hr ⟨names, ho, hk⟩
    rw [M.forEach_cons, ← List.singleton_append, replayW_append]
    exact (Rel.optionLink (evs := [.cycle s t]) _ hm (fun _ => rfl) (fun h => absurd hp h)).bind fun _ =>
      ih n hn hr ⟨names, ho, fun k h => hk k (by simp [h])⟩
  | @link path s k ks t sub rest hm hp _ _ ih1 ih2 =>
    intro n hn hr ⟨names, ho, hk⟩
    rw [M.forEach_cons, replayW_append]
    refine (Rel.optionLink (evs := sub) _ hm (fun h => absurd h hp) (fun _ => ?_)).bind fun _ =>
      ih2 n hn hr ⟨names, ho, fun k h => hk k (by simp [h])⟩
    obtain ⟨n, rfl⟩ : ∃ m, n = m + 1 := ⟨n - 1, by omega⟩
    have hlink : Links E s t := links_of_meaning ho (hk k (by simp)) hm
    have hr' : root ∈ path ∨ ¬ Reaches E t root := by
      rcases hr with h | h
      · exact .inl h
      · exact .inr (fun hx => h (.step hlink hx))
    have hne : t ≠ root := by
      rintro rfl
      rcases hr' with h | h
      · exact hp h
      · exact h (.refl _)
    have := ih1 n (by omega) hp (by rcases hr' with h | h; exact .inl h; exact .inr (.inr h)) false
    refine this.congr ?_ (by simp [finEvents])
    simp only [parseR, hne, and_false, if_false]

/-- Main refinement, with the calls of handlers as a parameter. -/
theorem relParse {E : Env δ ω} {P : HCall → Prog δ ω} {call : Caller δ ω} {oc : Oracle δ ω} (ha : Answers call oc)
    (hmk : Marks oc) {root : Str} {init fin : Bool} {evs : List (Ev δ ω)} {n : Nat}
    (ht : ParseTrace E root init fin evs) (hn : E.cfg.sectionNames.length + 3 ≤ n)
    (hd : init = true → E.cfg.hasSection E.defaultName = true →
      root = E.defaultName ∨ ¬ Reaches E E.defaultName root) :
    Rel [] (parseR E P call n root root init fin) (replayW E P oc root evs) := by
  obtain ⟨h1, h2, h3⟩ := ht
  obtain ⟨n, rfl⟩ : ∃ m, n = m + 2 := ⟨n - 2, by omega⟩
  rename_i evD evR
  have hroot := relTask (P := P) ha hmk h3 (n + 1) (by rw [todo_nil]; omega) (by simp) (.inr (.inl rfl)) fin
  have hfin : finEvents E root root fin =
      (if fin then [.call E.hookFinal (hookCall root py!"handler_finalize")] else []) := by
    simp [finEvents]
  rw [hfin] at hroot
  rw [parseR]
  cases init with
  | false =>
    have := h2 (by simp)
    subst this
    simpa using hroot
  | true =>
    simp only [and_self, if_true]
    have hi := Rel.call (E := E) (P := P) (root := root) (path := []) ha hmk E.hookInit (hookCall root py!"handler_initialize")
    by_cases hh : E.cfg.hasSection E.defaultName = true
    · have hD := h1 ⟨rfl, hh⟩
      have hDs := relTask (P := P) ha hmk hD n (by rw [todo_nil]; omega) (by simp)
        (by rcases hd rfl hh with h | h; exact .inr (.inl h); exact .inr (.inr h)) false
      have hPD : parseR E P call (n + 1) root E.defaultName false false =
          parseMain E P call (fun t => parseR E P call n root t true false) root E.defaultName false := by
        simp [parseR]
      simp only [hh, if_true]
      rw [hPD]
      refine (hi.bind fun _ => hDs.bind fun _ => hroot).congr rfl ?_
      simp only [finEvents, Bool.false_and, Bool.false_eq_true, if_false, List.append_nil, List.append_assoc, replayW_append, replayW_single]
    · have := h2 (by simp [hh])
      subst this
      simp only [hh]
      refine (hi.bind fun _ => hroot).congr rfl ?_
      simp only [List.append_nil, List.append_assoc, replayW_append, replayW_single]

end CPE.Re
