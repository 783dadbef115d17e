import Verif.Proofs.Reentrant
import Verif.Proofs.Replay
import Verif.Proofs.Success
/-
The model against the rules of `Runs`.
-/
namespace CPE.Re
open CPE CPE.Spec CPE.Re.Spec
variable {δ ω : Type} {E : Env δ ω} {P : HCall → Prog δ ω}

/-! ### Evaluation of `parse_section`, to a given depth -/

noncomputable def traceOf (E : Env δ ω) (s : Str) (i f : Bool) : List (Ev δ ω) := (parseTrace_total E s i f).choose

theorem traceOf_spec (E : Env δ ω) (s : Str) (i f : Bool) : ParseTrace E s i f (traceOf E s i f) :=
  (parseTrace_total E s i f).choose_spec

theorem traceOf_eq {s : Str} {i f : Bool} {evs : List (Ev δ ω)} (h : ParseTrace E s i f evs) : traceOf E s i f = evs :=
  parseTrace_det (traceOf_spec E s i f) h

noncomputable def evalS (E : Env δ ω) (P : HCall → Prog δ ω) (oc : Oracle δ ω) : Oracle δ ω := fun s i f v =>
  if s = [] then (.exc .valueError, v)
  else (replayW E P oc s (traceOf E s i f) >>= fun _ v => (.ok v.shared, { v with last := some v.shared }))
    { v with shared := E.emptyShared, checked := setAdd v.checked s }

noncomputable def evalD (E : Env δ ω) (P : HCall → Prog δ ω) : Nat → Oracle δ ω
  | 0 => fun _ _ _ v => (.diverge, v)
  | d + 1 => evalS E P (evalD E P d)

/-! ### Marks stay -/

/-- Nothing is unmarked. -/
def Grows {α : Type} (q : M (View δ ω) α) : Prop := ∀ v t, t ∈ v.checked → t ∈ (q v).2.checked

theorem Grows.bind {α β : Type} {q : M (View δ ω) α} {g : α → M (View δ ω) β} (h : Grows q) (hg : ∀ a, Grows (g a)) :
    Grows (q >>= g) := by
  intro v t ht
  rw [M.bind_def]
  have := h v t ht
  cases hq : q v with
  | mk o v' =>
    rw [hq] at this
    cases o with
    | ok a => exact hg a v' t this
    | exc e => exact this
    | diverge => exact this

theorem Grows.ofExcept {α : Type} (r : Except PyExc α) : Grows (δ := δ) (ω := ω) (M.ofExcept r) := by
  intro v t ht
  cases r <;> exact ht

theorem Grows.besides {α : Type} {q : M (View δ ω) α} (h : Grows q) : Grows (besides q) := by
  intro v t ht
  have := h v t ht
  unfold Re.besides
  cases hq : q v with
  | mk o v' =>
    rw [hq] at this
    cases o <;> exact this

theorem grows_owner {oc : Oracle δ ω} (h : ∀ s i f, Grows (oc s i f)) (s : Str) : Grows (ownerW oc s) := by
  intro v t ht
  unfold ownerW
  by_cases hs : s ∈ v.checked
  · rw [if_pos hs]; exact ht
  · rw [if_neg hs]
    exact (h s true true).bind (g := fun _ => pure ()) (fun _ _ _ h => h) { v with checked := setAdd v.checked s } t
      ((mem_setAdd _ _ _).mpr (.inr ht))

theorem grows_get {oc : Oracle δ ω} (h : ∀ s i f, Grows (oc s i f)) (s : Str) : Grows (getW oc s) :=
  (grows_owner h s).bind fun _ v t ht => Grows.ofExcept _ v t ht

theorem grows_set {oc : Oracle δ ω} (h : ∀ s i f, Grows (oc s i f)) (s k : Str) (x : Option Str) : Grows (setW E oc s k x) := by
  unfold setW inFileW
  refine Grows.bind ?_ fun _ v t ht => ht
  by_cases hc : E.cfg.hasSection s = true
  · rw [if_pos hc]; exact grows_owner h s
  · rw [if_neg hc]; exact fun _ _ ht => ht

theorem grows_prog {oc : Oracle δ ω} (h : ∀ s i f, Grows (oc s i f)) (p : Prog δ ω) : Grows (evalProg E oc p) := by
  induction p with
  | done r => exact Grows.ofExcept r
  | look k ih => exact fun v t ht => ih v.shared v.self v t ht
  | put d o k ih => exact fun v t ht => ih _ t ht
  | level i k ih => exact fun v t ht => ih _ t ht
  | parse s i f k ih => exact (h s i f).besides.bind ih
  | get s k ih => exact (grows_get h s).besides.bind ih
  | set s key x k ih => exact (grows_set h s key x).besides.bind ih

theorem onReturn_checked (E : Env δ ω) (r : Ret) (c : Core δ ω) : (onReturn E r c).2.checked = c.checked := by
  unfold onReturn notify
  cases r with
  | notInt => rfl
  | int i => dsimp only; split <;> (try split) <;> (try split) <;> (try split) <;> rfl

theorem afterwards_checked (h : Handler δ ω) (r : Ret) (v : View δ ω) : (afterwards E h r v).2.checked = v.checked := by
  unfold afterwards
  split
  · exact onReturn_checked _ _ _
  · rfl

theorem grows_step {oc : Oracle δ ω} (h : ∀ s i f, Grows (oc s i f)) (root : Str) (ev : Ev δ ω) :
    Grows (stepW E P oc root ev) := by
  by_cases hq : Quiet ev
  · intro v t ht
    rw [stepW_quiet hq]
    show t ∈ (evStep _ _ _ _).2.checked
    rw [evStep_checked]
    exact ht
  · cases ev with
    | call g hc =>
      refine (grows_prog h (P hc)).bind fun x v t ht => ?_
      show t ∈ (afterwards E g x v).2.checked
      rw [afterwards_checked]
      exact ht
    | _ => exact absurd trivial hq

theorem grows_replay {oc : Oracle δ ω} (h : ∀ s i f, Grows (oc s i f)) (root : Str) (evs : List (Ev δ ω)) :
    Grows (replayW E P oc root evs) := by
  unfold replayW
  induction evs with
  | nil => exact fun _ _ ht => ht
  | cons ev evs ih => rw [M.forEach_cons]; exact (grows_step h root ev).bind fun _ => ih

theorem grows_evalD (d : Nat) : ∀ s i f, Grows (evalD E P d s i f) := by
  induction d with
  | zero => exact fun _ _ _ _ _ ht => ht
  | succ d ih =>
    intro s i f v t ht
    show t ∈ (evalS E P (evalD E P d) s i f v).2.checked
    unfold evalS
    split
    · exact ht
    · exact ((grows_replay ih s _).bind (g := fun _ v => (Out.ok v.shared, { v with last := some v.shared }))
        (fun _ _ _ h => h)) _ t ((mem_setAdd _ _ _).mpr (.inr ht))

theorem marks_evalD (d : Nat) : Marks (evalD E P d) := fun s i f v h => grows_evalD d s i f v s h

/-! ### The model is the evaluation -/

theorem answers_evalS {call : Caller δ ω} {oc : Oracle δ ω} (ha : Answers call oc) (hmk : Marks oc) {n : Nat}
    (hn : E.cfg.sectionNames.length + 3 ≤ n)
    (hd : E.cfg.hasSection E.defaultName = true → ∀ s, Reaches E E.defaultName s → s = E.defaultName) :
    Answers (parseSection E P call n) (evalS E P oc) := by
  intro s i f st
  unfold parseSection evalS
  rw [M.modify_bind]
  by_cases hs : s = []
  · rw [if_pos hs, if_pos hs]; exact ⟨rfl, rfl⟩
  · rw [if_neg hs, if_neg hs, M.modify_bind]
    have := relParse (P := P) ha hmk (traceOf_spec E s i f) hn (fun _ h => by
      by_cases hr : Reaches E E.defaultName s
      · exact .inl (hd h s hr)
      · exact .inr hr) { st with processed := [], log := [], shared := E.emptyShared, checked := setAdd st.checked s } (fun x => Iff.rfl)
    obtain ⟨k1, k2, _⟩ := this
    rw [M.bind_def, M.bind_def]
    have hv : viewOf { st with processed := [], log := [], shared := E.emptyShared, checked := setAdd st.checked s } =
        { viewOf st with shared := E.emptyShared, checked := setAdd (viewOf st).checked s } := rfl
    rw [hv] at k1 k2
    cases hm : parseR E P call n s s i f { st with processed := [], log := [], shared := E.emptyShared, checked := setAdd st.checked s } with
    | mk o st' =>
      cases hq : replayW E P oc s (traceOf E s i f) { viewOf st with shared := E.emptyShared, checked := setAdd (viewOf st).checked s } with
      | mk o' v' =>
        rw [hm] at k1 k2
        rw [hq] at k1 k2
        simp only at k1 k2
        subst k1 k2
        cases o <;> exact ⟨rfl, rfl⟩

theorem answers_evalD {n : Nat} (hn : E.cfg.sectionNames.length + 3 ≤ n)
    (hd : E.cfg.hasSection E.defaultName = true → ∀ s, Reaches E E.defaultName s → s = E.defaultName) (d : Nat) :
    Answers (parse E P d n) (evalD E P d) := by
  induction d with
  | zero => exact fun _ _ _ _ => ⟨rfl, rfl⟩
  | succ d ih => exact answers_evalS ih (marks_evalD d) hn hd

/-! ### The evaluation follows the rules -/

/-- What the evaluation says of a job. -/
def Evals (E : Env δ ω) (P : HCall → Prog δ ω) (oc : Oracle δ ω) : Job δ ω → View δ ω → Res δ → View δ ω → Prop
  | .events root evs, v, .fine, v' => replayW E P oc root evs v = (.ok (), v')
  | .events root evs, v, .raises e, v' => replayW E P oc root evs v = (.exc e, v')
  | .handler p, v, .returns x, v' => evalProg E oc p v = (.ok x, v')
  | .handler p, v, .raises e, v' => evalProg E oc p v = (.exc e, v')
  | .parse s i f, v, .gives d, v' => oc s i f v = (.ok d, v')
  | .parse s i f, v, .raises e, v' => oc s i f v = (.exc e, v')
  | _, _, _, _ => False

/-- The calls that handlers make follow the rules. -/
def Sound (E : Env δ ω) (P : HCall → Prog δ ω) (oc : Oracle δ ω) : Prop :=
  ∀ s i f v, (∀ d v', oc s i f v = (.ok d, v') → Runs E P (.parse s i f) v (.gives d) v') ∧
    (∀ e v', oc s i f v = (.exc e, v') → Runs E P (.parse s i f) v (.raises e) v')

theorem bind_cases {W α β : Type} {m : M W α} {f : α → M W β} {w w' : W} {o : Out β} (h : (m >>= f) w = (o, w')) :
    (∃ a w1, m w = (.ok a, w1) ∧ f a w1 = (o, w')) ∨ (∃ e, m w = (.exc e, w') ∧ o = .exc e) ∨ (m w = (.diverge, w') ∧ o = .diverge) := by
  rw [M.bind_def] at h
  cases hm : m w with
  | mk o1 w1 =>
    rw [hm] at h
    cases o1 with
    | ok a => exact .inl ⟨a, w1, rfl, h⟩
    | exc e => cases h; exact .inr (.inl ⟨e, rfl, rfl⟩)
    | diverge => cases h; exact .inr (.inr ⟨rfl, rfl⟩)

/-- An outcome that is not divergence, as a result. -/
def resOf (r : Except PyExc Ret) : Res δ :=
  match r with
  | .ok x => .returns x
  | .error e => .raises e

def outOf {α : Type} (r : Except PyExc α) : Out α :=
  match r with
  | .ok x => .ok x
  | .error e => .exc e

theorem besides_cases {α : Type} {q : M (View δ ω) α} {v v1 : View δ ω} {r : Except PyExc α}
    (h : besides q v = (.ok r, v1)) : ∃ v0, q v = (outOf r, v0) ∧ v1 = { v0 with shared := v.shared } := by
  unfold besides at h
  cases hq : q v with
  | mk o v0 =>
    rw [hq] at h
    cases o with
    | ok a => cases h; exact ⟨v0, rfl, rfl⟩
    | exc e => cases h; exact ⟨v0, rfl, rfl⟩
    | diverge => cases h

theorem besides_not_exc {α : Type} {q : M (View δ ω) α} {v v1 : View δ ω} {e : PyExc} : besides q v ≠ (.exc e, v1) := by
  unfold besides
  rcases q v with ⟨o, v0⟩
  cases o <;> simp

theorem sound_step {γ : Type} {q : M (View δ ω) γ} {g : Except PyExc γ → M (View δ ω) Ret}
    {v v' : View δ ω} {r : Except PyExc Ret} (h : (besides q >>= g) v = (outOf r, v')) :
    ∃ y v0, q v = (outOf y, v0) ∧ g y { v0 with shared := v.shared } = (outOf r, v') := by
  rcases bind_cases h with ⟨a, w1, h1, h2⟩ | ⟨e, h1, _⟩ | ⟨_, h2⟩
  · obtain ⟨v0, h3, rfl⟩ := besides_cases h1
    exact ⟨a, v0, h3, h2⟩
  · exact absurd h1 besides_not_exc
  · cases r <;> cases h2

theorem owner_cases {oc : Oracle δ ω} {s : Str} {v v' : View δ ω} {o : Out Unit} (h : ownerW oc s v = (o, v'))
    (ho : o ≠ .diverge) :
    (s ∈ v.checked ∧ o = .ok () ∧ v' = v) ∨
    (s ∉ v.checked ∧ ∃ d, oc s true true { v with checked := setAdd v.checked s } = (.ok d, v') ∧ o = .ok ()) ∨
    (s ∉ v.checked ∧ ∃ e, oc s true true { v with checked := setAdd v.checked s } = (.exc e, v') ∧ o = .exc e) := by
  unfold ownerW at h
  by_cases hs : s ∈ v.checked
  · rw [if_pos hs] at h; cases h; exact .inl ⟨hs, rfl, rfl⟩
  · rw [if_neg hs] at h
    rcases bind_cases h with ⟨a, w1, h1, h2⟩ | ⟨e, h1, h2⟩ | ⟨_, h2⟩
    · cases h2; exact .inr (.inl ⟨hs, a, h1, rfl⟩)
    · exact .inr (.inr ⟨hs, e, h1, h2⟩)
    · exact absurd h2 ho

theorem prog_sound {oc : Oracle δ ω} (h : Sound E P oc) (p : Prog δ ω) : ∀ (v : View δ ω) (r : Except PyExc Ret) (v' : View δ ω),
    evalProg E oc p v = (outOf r, v') → Runs E P (.handler p) v (resOf r) v' := by
  induction p with
  | done x =>
    intro v r v' he
    cases x <;> cases r <;> cases he
    · exact .raises
    · exact .returns
  | look k ih => exact fun v r v' he => .look (ih v.shared v.self v r v' he)
  | put d o k ih => exact fun v r v' he => .put (ih _ r v' he)
  | level i k ih =>
    intro v r v' he
    refine .level (n := (min 5 (max 0 i)).toNat) ?_ (ih _ r v' he)
    omega
  | parse s i f k ih =>
    intro v r v' he
    obtain ⟨y, v0, h1, h2⟩ := sound_step he
    cases y with
    | ok d => exact .parses ((h s i f v).1 d v0 h1) rfl (ih _ _ r v' h2)
    | error e => exact .parses ((h s i f v).2 e v0 h1) rfl (ih _ _ r v' h2)
  | get s k ih =>
    intro v r v' he
    obtain ⟨y, v0, h1, h2⟩ := sound_step he
    rcases bind_cases h1 with ⟨a, w1, g1, g2⟩ | ⟨e, g1, g2⟩ | ⟨_, g2⟩
    · have hy : y = collected w1 s ∧ v0 = w1 := by
        rw [M.read_bind] at g2
        revert g2
        cases collected w1 s <;> cases y <;> intro g2 <;> cases g2 <;> exact ⟨rfl, rfl⟩
      obtain ⟨rfl, rfl⟩ := hy
      rcases owner_cases g1 (by simp) with ⟨k1, _, k3⟩ | ⟨k1, d, k2, _⟩ | ⟨_, _, _, k3⟩
      · subst k3; exact .gets k1 (ih _ _ r v' h2)
      · exact .getParses k1 ((h s true true _).1 d _ k2) (ih _ _ r v' h2)
      · cases k3
    · rcases owner_cases g1 (by simp) with ⟨_, k2, _⟩ | ⟨_, _, _, k2⟩ | ⟨k1, e', k2, k3⟩
      · cases k2
      · cases k2
      · cases k3
        cases y with
        | ok a => cases g2
        | error e'' => cases g2; exact .getFails k1 ((h s true true _).2 _ _ k2) (ih _ _ r v' h2)
    · cases y <;> cases g2
  | set s key x k ih =>
    intro v r v' he
    obtain ⟨y, v0, h1, h2⟩ := sound_step he
    rcases bind_cases h1 with ⟨a, w1, g1, g2⟩ | ⟨e, g1, g2⟩ | ⟨_, g2⟩
    · have hy : y = .ok () ∧ v0 = written w1 s key x := by
        cases y <;> cases g2 <;> exact ⟨rfl, rfl⟩
      obtain ⟨rfl, rfl⟩ := hy
      unfold inFileW at g1
      by_cases hc : E.cfg.hasSection s = true
      · rw [if_pos hc] at g1
        rcases owner_cases g1 (by simp) with ⟨k1, _, k3⟩ | ⟨k1, d, k2, _⟩ | ⟨_, _, _, k3⟩
        · subst k3; exact .sets (fun _ => k1) (ih _ _ r v' h2)
        · exact .setParses hc k1 ((h s true true _).1 d _ k2) (ih _ _ r v' h2)
        · cases k3
      · rw [if_neg hc] at g1
        cases g1
        exact .sets (fun hx => absurd hx hc) (ih _ _ r v' h2)
    · unfold inFileW at g1
      by_cases hc : E.cfg.hasSection s = true
      · rw [if_pos hc] at g1
        rcases owner_cases g1 (by simp) with ⟨_, k2, _⟩ | ⟨_, _, _, k2⟩ | ⟨k1, e', k2, k3⟩
        · cases k2
        · cases k2
        · cases k3
          cases y with
          | ok a => cases g2
          | error e'' => cases g2; exact .setFails hc k1 ((h s true true _).2 _ _ k2) (ih _ _ r v' h2)
      · rw [if_neg hc] at g1; cases g1
    · cases y <;> cases g2

theorem replay_sound {oc : Oracle δ ω} (h : Sound E P oc) (root : Str) (evs : List (Ev δ ω)) : ∀ v v',
    (replayW E P oc root evs v = (.ok (), v') → Runs E P (.events root evs) v .fine v') ∧
    (∀ e, replayW E P oc root evs v = (.exc e, v') → Runs E P (.events root evs) v (.raises e) v') := by
  unfold replayW
  induction evs with
  | nil => exact fun v v' => ⟨fun he => by cases he; exact .nil, fun e he => by cases he⟩
  | cons ev evs ih =>
    intro v v'
    have hok : ∀ {v1}, stepW E P oc root ev v = (.ok (), v1) → ∀ r, Runs E P (.events root evs) v1 r v' →
        Runs E P (.events root (ev :: evs)) v r v' := by
      intro v1 hs r hr
      by_cases hq : Quiet ev
      · rw [stepW_quiet hq] at hs
        cases hx : evStep { E with level := v.level } root ev v.toCore with
        | mk o c =>
          rw [hx] at hs
          cases o with
          | none => cases hs; exact .event hq hx hr
          | some e => cases hs
      · cases ev with
        | call g hc =>
          rcases bind_cases hs with ⟨a, w1, h1, h2⟩ | ⟨e, _, h2⟩ | ⟨_, h2⟩
          · cases hx : afterwards E g a w1 with
            | mk o c =>
              simp only [hx] at h2
              cases o with
              | none => cases h2; exact .call (prog_sound h _ v (.ok a) w1 h1) hx hr
              | some e => cases h2
          · cases h2
          · cases h2
        | _ => exact absurd trivial hq
    refine ⟨fun he => ?_, fun e he => ?_⟩
    · rw [M.forEach_cons] at he
      rcases bind_cases he with ⟨_, w1, h1, h2⟩ | ⟨e, _, h2⟩ | ⟨_, h2⟩
      · exact hok h1 _ ((ih w1 v').1 h2)
      · cases h2
      · cases h2
    · rw [M.forEach_cons] at he
      rcases bind_cases he with ⟨_, w1, h1, h2⟩ | ⟨e', h1, h2⟩ | ⟨_, h2⟩
      · exact hok h1 _ ((ih w1 v').2 e h2)
      · cases h2
        by_cases hq : Quiet ev
        · rw [stepW_quiet hq] at h1
          cases hx : evStep { E with level := v.level } root ev v.toCore with
          | mk o c =>
            rw [hx] at h1
            cases o with
            | none => cases h1
            | some e => cases h1; exact .raise hq hx
        · cases ev with
          | call g hc =>
            rcases bind_cases h1 with ⟨a, w1, h3, h2⟩ | ⟨e, h3, h2⟩ | ⟨_, h2⟩
            · cases hx : afterwards E g a w1 with
              | mk o c =>
                simp only [hx] at h2
                cases o with
                | none => cases h2
                | some e => cases h2; exact .callFails (prog_sound h _ v (.ok a) w1 h3) hx
            · cases h2; exact .callRaises (prog_sound h _ v (.error _) _ h3)
            · cases h2
          | _ => exact absurd trivial hq
      · cases h2

theorem sound_evalD (d : Nat) : Sound E P (evalD E P d) := by
  induction d with
  | zero => exact fun s i f v => ⟨fun d v' h => (by cases h), fun e v' h => by cases h⟩
  | succ d ih =>
    intro s i f v
    have hx : evalD E P (d + 1) s i f v = evalS E P (evalD E P d) s i f v := rfl
    rw [hx]
    unfold evalS
    by_cases hs : s = []
    · subst hs
      rw [if_pos rfl]
      exact ⟨fun d v' h => (by cases h), fun e v' h => by cases h; exact .noName⟩
    · rw [if_neg hs]
      refine ⟨fun x v' h => ?_, fun e v' h => ?_⟩
      · rcases bind_cases h with ⟨_, w1, h1, h2⟩ | ⟨e, _, h2⟩ | ⟨_, h2⟩
        · cases h2; exact .parsed hs (traceOf_spec E s i f) ((replay_sound ih s _ _ _).1 h1)
        · cases h2
        · cases h2
      · rcases bind_cases h with ⟨_, w1, h1, h2⟩ | ⟨e', h1, h2⟩ | ⟨_, h2⟩
        · cases h2
        · cases h2; exact .failed hs (traceOf_spec E s i f) ((replay_sound ih s _ _ _).2 _ h1)
        · cases h2

/-! ### The rules are all followed -/

theorem besides_of {α : Type} {q : M (View δ ω) α} {v v0 : View δ ω} {r : Except PyExc α} (h : q v = (outOf r, v0)) :
    besides q v = (.ok r, { v0 with shared := v.shared }) := by
  unfold besides
  rw [h]
  cases r <;> rfl

theorem evals_complete {j : Job δ ω} {v v' : View δ ω} {r : Res δ} (h : Runs E P j v r v') :
    ∃ d, ∀ d', d ≤ d' → Evals E P (evalD E P d') j v r v' := by
  -- one step, then the rest
  have hstep : ∀ {oc : Oracle δ ω} {root ev evs v v1 r v'}, stepW E P oc root ev v = (.ok (), v1) →
      Evals E P oc (.events root evs) v1 r v' → Evals E P oc (.events root (ev :: evs)) v r v' := by
    intro oc root ev evs v v1 r v' h1 h2
    cases r with
    | fine => show M.forEach _ _ _ = _; rw [M.forEach_cons, M.bind_ok h1]; exact h2
    | raises e => show M.forEach _ _ _ = _; rw [M.forEach_cons, M.bind_ok h1]; exact h2
    | returns x => exact h2
    | gives x => exact h2
  have hfail : ∀ {oc : Oracle δ ω} {root ev evs v v1 e}, stepW E P oc root ev v = (.exc e, v1) →
      Evals E P oc (.events root (ev :: evs)) v (.raises e) v1 := by
    intro oc root ev evs v v1 e h1
    show M.forEach _ _ _ = _
    rw [M.forEach_cons, M.bind_exc h1]
  have hprog : ∀ {oc : Oracle δ ω} {γ : Type} {q : M (View δ ω) γ} {k : Except PyExc γ → Prog δ ω} {p : Prog δ ω} {y v v0 r v'},
      evalProg E oc p = (besides q >>= fun y => evalProg E oc (k y)) → q v = (outOf y, v0) →
      Evals E P oc (.handler (k y)) { v0 with shared := v.shared } r v' → Evals E P oc (.handler p) v r v' := by
    intro oc γ q k p y v v0 r v' he h1 h2
    cases r with
    | fine => exact h2
    | raises e => show evalProg E oc p v = _; rw [he, M.bind_ok (besides_of h1)]; exact h2
    | returns x => show evalProg E oc p v = _; rw [he, M.bind_ok (besides_of h1)]; exact h2
    | gives x => exact h2
  have hget : ∀ {oc : Oracle δ ω} {s v w}, ownerW oc s v = (.ok (), w) → getW oc s v = (outOf (collected w s), w) := by
    intro oc s v w h1
    unfold getW
    rw [M.bind_ok h1, M.read_bind]
    cases collected w s <;> rfl
  have hown : ∀ {oc : Oracle δ ω} {s v w d}, s ∉ v.checked →
      oc s true true { v with checked := setAdd v.checked s } = (.ok d, w) → ownerW oc s v = (.ok (), w) := by
    intro oc s v w d h1 h2
    unfold ownerW
    rw [if_neg h1, M.bind_ok h2]
    rfl
  have hownE : ∀ {oc : Oracle δ ω} {s v w e}, s ∉ v.checked →
      oc s true true { v with checked := setAdd v.checked s } = (.exc e, w) → ownerW oc s v = (.exc e, w) := by
    intro oc s v w d h1 h2
    unfold ownerW
    rw [if_neg h1, M.bind_exc h2]
  induction h with
  | nil => exact ⟨0, fun _ _ => rfl⟩
  | @event root ev evs v c r v' hq he _ ih =>
    obtain ⟨d, ih⟩ := ih
    refine ⟨d, fun d' hd => hstep (v1 := { v with toCore := c }) ?_ (ih d' hd)⟩
    rw [stepW_quiet hq, he]; rfl
  | @raise root ev evs v c e hq he =>
    refine ⟨0, fun d' _ => hfail ?_⟩
    rw [stepW_quiet hq, he]; rfl
  | @call root h hc evs v x v1 c r v' _ he _ ih1 ih2 =>
    obtain ⟨d1, ih1⟩ := ih1
    obtain ⟨d2, ih2⟩ := ih2
    refine ⟨max d1 d2, fun d' hd => hstep (v1 := { v1 with toCore := c }) ?_ (ih2 d' (by omega))⟩
    have h1 : evalProg E (evalD E P d') (P hc) v = (.ok x, v1) := ih1 d' (by omega)
    show (evalProg E (evalD E P d') (P hc) >>= _) v = _
    rw [M.bind_ok h1, he]; rfl
  | @callFails root h hc evs v x v1 c e _ he ih1 =>
    obtain ⟨d1, ih1⟩ := ih1
    refine ⟨d1, fun d' hd => hfail ?_⟩
    have h1 : evalProg E (evalD E P d') (P hc) v = (.ok x, v1) := ih1 d' hd
    show (evalProg E (evalD E P d') (P hc) >>= _) v = _
    rw [M.bind_ok h1, he]; rfl
  | @callRaises root h hc evs v e v1 _ ih1 =>
    obtain ⟨d1, ih1⟩ := ih1
    refine ⟨d1, fun d' hd => hfail ?_⟩
    have h1 : evalProg E (evalD E P d') (P hc) v = (.exc e, v1) := ih1 d' hd
    show (evalProg E (evalD E P d') (P hc) >>= _) v = _
    rw [M.bind_exc h1]
  | returns => exact ⟨0, fun _ _ => rfl⟩
  | raises => exact ⟨0, fun _ _ => rfl⟩
  | @look k v r v' _ ih =>
    obtain ⟨d, ih⟩ := ih
    exact ⟨d, fun d' hd => by have := ih d' hd; cases r <;> exact this⟩
  | @put x o k v r v' _ ih =>
    obtain ⟨d, ih⟩ := ih
    exact ⟨d, fun d' hd => by have := ih d' hd; cases r <;> exact this⟩
  | @level i n k v r v' hn _ ih =>
    obtain ⟨d, ih⟩ := ih
    have : n = (min 5 (max 0 i)).toNat := by omega
    subst this
    exact ⟨d, fun d' hd => by have := ih d' hd; cases r <;> exact this⟩
  | @parses s i f k v x y v1 r v' _ hy _ ih1 ih2 =>
    obtain ⟨d1, ih1⟩ := ih1
    obtain ⟨d2, ih2⟩ := ih2
    refine ⟨max d1 d2, fun d' hd => hprog (q := evalD E P d' s i f) (k := k) (y := y) (v0 := v1) rfl ?_ (ih2 d' (by omega))⟩
    have h1 := ih1 d' (by omega)
    cases x <;> cases hy <;> exact h1
  | @gets s k v r v' hs _ ih =>
    obtain ⟨d, ih⟩ := ih
    refine ⟨d, fun d' hd => hprog (q := getW (evalD E P d') s) (k := k) (v0 := v) rfl (hget ?_) (ih d' hd)⟩
    unfold ownerW
    rw [if_pos hs]
  | @getParses s k v x v1 r v' hs _ _ ih1 ih2 =>
    obtain ⟨d1, ih1⟩ := ih1
    obtain ⟨d2, ih2⟩ := ih2
    exact ⟨max d1 d2, fun d' hd => hprog (q := getW (evalD E P d') s) (k := k) rfl
      (hget (hown hs (ih1 d' (by omega)))) (ih2 d' (by omega))⟩
  | @getFails s k v e v1 r v' hs _ _ ih1 ih2 =>
    obtain ⟨d1, ih1⟩ := ih1
    obtain ⟨d2, ih2⟩ := ih2
    refine ⟨max d1 d2, fun d' hd => hprog (q := getW (evalD E P d') s) (k := k) (y := .error e) (v0 := v1) rfl ?_ (ih2 d' (by omega))⟩
    unfold getW
    rw [M.bind_exc (hownE hs (ih1 d' (by omega)))]
    rfl
  | @sets s key x k v r v' hs _ ih =>
    obtain ⟨d, ih⟩ := ih
    refine ⟨d, fun d' hd => hprog (q := setW E (evalD E P d') s key x) (k := k) (y := .ok ()) (v0 := written v s key x) rfl ?_ (ih d' hd)⟩
    unfold setW inFileW
    by_cases hc : E.cfg.hasSection s = true
    · rw [if_pos hc, M.bind_def]
      unfold ownerW
      rw [if_pos (hs hc)]
      rfl
    · rw [if_neg hc]; rfl
  | @setParses s key x k v z v1 r v' hc hs _ _ ih1 ih2 =>
    obtain ⟨d1, ih1⟩ := ih1
    obtain ⟨d2, ih2⟩ := ih2
    refine ⟨max d1 d2, fun d' hd => hprog (q := setW E (evalD E P d') s key x) (k := k) (y := .ok ()) (v0 := written v1 s key x) rfl ?_ (ih2 d' (by omega))⟩
    unfold setW inFileW
    rw [if_pos hc, M.bind_ok (hown hs (ih1 d' (by omega)))]
    rfl
  | @setFails s key x k v e v1 r v' hc hs _ _ ih1 ih2 =>
    obtain ⟨d1, ih1⟩ := ih1
    obtain ⟨d2, ih2⟩ := ih2
    refine ⟨max d1 d2, fun d' hd => hprog (q := setW E (evalD E P d') s key x) (k := k) (y := .error e) (v0 := v1) rfl ?_ (ih2 d' (by omega))⟩
    unfold setW inFileW
    rw [if_pos hc, M.bind_exc (hownE hs (ih1 d' (by omega)))]
    rfl
  | @noName i f v =>
    refine ⟨1, fun d' hd => ?_⟩
    obtain ⟨d', rfl⟩ : ∃ m, d' = m + 1 := ⟨d' - 1, by omega⟩
    rfl
  | @parsed s i f evs v v1 hs ht _ ih =>
    obtain ⟨d, ih⟩ := ih
    refine ⟨d + 1, fun d' hd => ?_⟩
    obtain ⟨d', rfl⟩ : ∃ m, d' = m + 1 := ⟨d' - 1, by omega⟩
    have h1 : replayW E P (evalD E P d') s evs _ = (.ok (), v1) := ih d' (by omega)
    show evalS E P (evalD E P d') s i f v = _
    unfold evalS
    rw [if_neg hs, traceOf_eq ht, M.bind_ok h1]
  | @failed s i f evs v e v1 hs ht _ ih =>
    obtain ⟨d, ih⟩ := ih
    refine ⟨d + 1, fun d' hd => ?_⟩
    obtain ⟨d', rfl⟩ : ∃ m, d' = m + 1 := ⟨d' - 1, by omega⟩
    have h1 : replayW E P (evalD E P d') s evs _ = (.exc e, v1) := ih d' (by omega)
    show evalS E P (evalD E P d') s i f v = _
    unfold evalS
    rw [if_neg hs, traceOf_eq ht, M.bind_exc h1]

end CPE.Re
