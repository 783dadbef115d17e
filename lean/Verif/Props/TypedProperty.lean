import Verif.Spec.TypedProperty
/-
C20, C21: typed_property for arbitrary histories and arbitrary callables.
-/
namespace CPE.Props
open CPE.Spec
variable {V : Type}

theorem castValue_iff (c : TPConfig V) (v v' : V) : c.castValue v = .ok v' ↔ Casts c v v' := by
  unfold TPConfig.castValue Casts
  cases h : c.cast with
  | none => simp [eq_comm]
  | some f => simp

theorem transformValue_iff (c : TPConfig V) (v v' : V) :
    c.transformValue v = .ok v' ↔ Transforms c v v' := by
  unfold TPConfig.transformValue Transforms
  cases hf : c.transform with
  | none => simp [eq_comm]
  | notCallable => simp
  | fn f => cases hfu : f v <;> simp [hfu, castValue_iff]

theorem validateValue_iff (c : TPConfig V) (v : V) : c.validateValue v = .ok () ↔ Validates c v := by
  unfold TPConfig.validateValue Validates
  cases hf : c.validator with
  | none => simp
  | notCallable => simp
  | fn f =>
    cases hfu : f v with
    | error e => simp [hfu]
    | ok b => cases b <;> simp [hfu]

/-- **C20 (acceptance).** The setter stores `v'` for `v` exactly when `v` has an expected type,
the casts and the transform succeed, and the validator approves the value that is stored. -/
theorem C20_accepts_iff (c : TPConfig V) (s : TPState V) (v v' : V) :
    Accepts c v v' ↔
      (c.set v s).1 = .ok () ∧ (c.set v s).2.value = some v' := by
  have key : c.convert v = .ok v' ↔ Accepts c v v' := by
    unfold TPConfig.convert Accepts
    simp only [← castValue_iff, ← transformValue_iff, ← validateValue_iff]
    cases ht : c.isType v
    · simp
    · cases hc : c.castValue v with
      | error e => simp
      | ok u =>
        cases hT : c.transformValue u with
        | error e => simp [hT]
        | ok w =>
          cases hV : c.validateValue w <;> simp [hT, hV] <;> (rintro rfl; simp [hV])
  rw [← key]
  unfold TPConfig.set
  cases hc : c.convert v with
  | error e => simp
  | ok w => simp

/-- **C20 (rejection).** A rejected assignment raises and leaves the object exactly as it was. A value
of the wrong type raises TypeError; a value that reaches the validator and fails raises ValueError. -/
theorem C20_rejected_unchanged (c : TPConfig V) (s : TPState V) (v : V)
    (h : ¬ ∃ v', Accepts c v v') :
    (∃ e, (c.set v s).1 = .exc e) ∧ (c.set v s).2 = s ∧
    (c.isType v = false → (c.set v s).1 = .exc .typeError) ∧
    (c.isType v = true → ∀ u w p, Casts c v u → Transforms c u w → c.validator = .fn p →
      p w = .ok false → (c.set v s).1 = .exc .valueError) := by
  have hn : ∀ w, c.convert v ≠ .ok w := by
    intro w hw
    apply h
    refine ⟨w, (C20_accepts_iff c s v w).mpr ?_⟩
    simp [TPConfig.set, hw]
  cases hc : c.convert v with
  | ok w => exact absurd hc (hn w)
  | error e =>
    refine ⟨⟨e, by simp [TPConfig.set, hc]⟩, by simp [TPConfig.set, hc], ?_, ?_⟩
    · intro ht
      simp [TPConfig.set, TPConfig.convert, ht]
    · intro ht u w p hu hw hp hpw
      simp [TPConfig.set, TPConfig.convert, ht, (castValue_iff c v u).mpr hu,
        (transformValue_iff c u w).mpr hw, TPConfig.validateValue, hp, hpw]

/-- Invariant tying the object's attributes to the history. -/
theorem holds_inv (c : TPConfig V) {h : List (TPOp V)} {o : Option V} (hh : Holds c h o) :
    match o with
    | some v => (TPOp.run c {} h).value = some v ∧ (TPOp.run c {} h).isSet = some true
    | none => (TPOp.run c {} h).isSet ≠ some true ∧
        ((TPOp.run c {} h).value = none ∨
          (c.reqAssign = false ∧ ∃ v, readOutcome c none = .ok v ∧ (TPOp.run c {} h).value = some v)) := by
  have snoc : ∀ (h : List (TPOp V)) (op : TPOp V),
      TPOp.run c {} (h ++ [op]) = TPOp.step c (TPOp.run c {} h) op := by
    intro h op; simp [TPOp.run, List.foldl_append]
  induction hh with
  | new => simp [TPOp.run]
  | @get h o _ ih =>
    rw [snoc]
    generalize TPOp.run c {} h = s at ih
    obtain ⟨val, st⟩ := s
    cases o with
    | some v =>
      obtain ⟨rfl, rfl⟩ := ih
      simp [TPOp.step, TPConfig.get]
    | none =>
      obtain ⟨h1, h2⟩ := ih
      simp only [TPOp.step, TPConfig.get]
      have hst : (match st with
        | some _ => (⟨val, st⟩ : TPState V)
        | none => ⟨val, some false⟩) = ⟨val, some false⟩ := by
        cases st with
        | none => rfl
        | some b => cases b <;> simp_all
      simp only at h1 h2
      cases st with
      | none =>
        simp only
        cases hr : c.reqAssign
        · rcases h2 with h2 | ⟨_, v, hv, h2⟩
          · subst h2
            simp only [readOutcome, hr]
            cases hd : c.default with
            | some d => simp
            | none => cases hf : c.factory with
              | none => simp
              | some f => cases f <;> simp
          · subst h2; simp [hv]
        · rcases h2 with h2 | ⟨h3, _⟩
          · subst h2; simp
          · simp_all
      | some b =>
        cases b
        · simp only
          cases hr : c.reqAssign
          · rcases h2 with h2 | ⟨_, v, hv, h2⟩
            · subst h2
              simp only [readOutcome, hr]
              cases hd : c.default with
              | some d => simp
              | none => cases hf : c.factory with
                | none => simp
                | some f => cases f <;> simp
            · subst h2; simp [hv]
          · rcases h2 with h2 | ⟨h3, _⟩
            · subst h2; simp
            · simp_all
        · simp at h1
  | @accepted h o v v' _ ha ih =>
    rw [snoc]
    have := (C20_accepts_iff c (TPOp.run c {} h) v v').mp ha
    simp only [TPOp.step]
    refine ⟨this.2, ?_⟩
    unfold TPConfig.set at this ⊢
    cases hc : c.convert v <;> simp_all
  | @rejected h o v _ hr ih =>
    rw [snoc]
    have := (C20_rejected_unchanged c (TPOp.run c {} h) v hr).2.1
    simp only [TPOp.step, this]
    cases o <;> exact ih
  | @del h o _ ih =>
    rw [snoc]
    simp [TPOp.step, TPConfig.del]

/-- Every history is described by `Holds` (so C20/C21 below speak about all histories). -/
theorem C20_holds_total (c : TPConfig V) (h : List (TPOp V)) : ∃ o, Holds c h o := by
  have : ∀ r : List (TPOp V), ∃ o, Holds c r.reverse o := by
    intro r
    induction r with
    | nil => exact ⟨none, .new⟩
    | cons op r ih =>
      obtain ⟨o, ho⟩ := ih
      rw [List.reverse_cons]
      cases op with
      | get => exact ⟨o, .get ho⟩
      | del => exact ⟨none, .del ho⟩
      | set v =>
        by_cases ha : ∃ v', Accepts c v v'
        · obtain ⟨v', ha⟩ := ha; exact ⟨some v', .accepted ho ha⟩
        · exact ⟨o, .rejected ho ha⟩
  have := this h.reverse
  rwa [List.reverse_reverse] at this

/-- **C20/C21 (reads).** After any history, a read gives the stored form of the last assignment that was
accepted since the last delete; if there is none it raises UnboundLocalError when
`req_assign_before_use` is set and gives the default otherwise. -/
theorem C20_read_after_history (c : TPConfig V) {h : List (TPOp V)} {o : Option V}
    (hh : Holds c h o) : (c.get (TPOp.run c {} h)).1 = readOutcome c o := by
  have inv := holds_inv c hh
  generalize TPOp.run c {} h = s at inv
  obtain ⟨val, st⟩ := s
  cases o with
  | some v =>
    obtain ⟨rfl, rfl⟩ := inv
    simp [TPConfig.get, readOutcome]
  | none =>
    obtain ⟨h1, h2⟩ := inv
    simp only at h1 h2
    have hst : st = none ∨ st = some false := by
      cases st with
      | none => exact .inl rfl
      | some b => cases b <;> simp_all
    cases hr : c.reqAssign
    · rcases h2 with h2 | ⟨_, v, hv, h2⟩
      · subst h2
        rcases hst with rfl | rfl <;>
          (simp only [TPConfig.get, readOutcome, hr]
           cases hd : c.default with
           | some d => simp
           | none => cases hf : c.factory with
             | none => simp
             | some f => cases f <;> simp)
      · subst h2
        rw [hv]
        rcases hst with rfl | rfl <;> simp [TPConfig.get, hr]
    · rcases hst with rfl | rfl <;> simp [TPConfig.get, readOutcome, hr]

/-- **C20 (soundness).** Whatever a history did, a value that was ever held was produced by an
assignment in the history that passed every check. -/
theorem C20_held_was_assigned (c : TPConfig V) {h : List (TPOp V)} {v' : V}
    (hh : Holds c h (some v')) : ∃ v, TPOp.set v ∈ h ∧ Accepts c v v' := by
  generalize ho : some v' = o at hh
  induction hh with
  | new => cases ho
  | get _ ih => obtain ⟨v, h1, h2⟩ := ih ho; exact ⟨v, by simp [h1], h2⟩
  | @accepted h o v w _ ha _ => cases ho; exact ⟨v, by simp, ha⟩
  | rejected _ _ ih => obtain ⟨v, h1, h2⟩ := ih ho; exact ⟨v, by simp [h1], h2⟩
  | del _ _ => cases ho

/-- **C21 (assign before use).** With `req_assign_before_use` a read raises UnboundLocalError exactly
when no assignment was accepted since creation or the last delete. -/
theorem C21_unbound_iff (c : TPConfig V) (hreq : c.reqAssign = true) {h : List (TPOp V)} {o : Option V}
    (hh : Holds c h o) :
    (c.get (TPOp.run c {} h)).1 = .exc .unboundLocalError ↔ o = none := by
  rw [C20_read_after_history c hh]
  cases o <;> simp [readOutcome, hreq]

/-- **C21 (delete).** Deleting brings the property back to its initial state: any continuation behaves as
on a new object. -/
theorem C21_delete_resets (c : TPConfig V) (s : TPState V) (h : List (TPOp V)) :
    TPOp.run c (TPConfig.del s).2 h = TPOp.run c {} h := rfl

/-- A concrete configuration: ints in steps of two, cast by adding one, validated to be positive. -/
def exampleTP : TPConfig Int :=
  { isType := fun i => i % 2 == 0, default := none, factory := some (.ok 7), reqAssign := false
    cast := some fun i => .ok (i + 1), transform := .fn fun i => .ok (i * 3)
    validator := .fn fun i => .ok (decide (i > 0)) }

example : Accepts exampleTP 4 16 :=
  ⟨rfl, 5, .inr ⟨_, rfl, rfl⟩, .inr ⟨_, 15, rfl, rfl, .inr ⟨_, rfl, rfl⟩⟩, .inr ⟨_, rfl, rfl⟩⟩
example : Holds exampleTP [.set 4] (some 16) := by
  have : Accepts exampleTP 4 16 :=
    ⟨rfl, 5, .inr ⟨_, rfl, rfl⟩, .inr ⟨_, 15, rfl, rfl, .inr ⟨_, rfl, rfl⟩⟩, .inr ⟨_, rfl, rfl⟩⟩
  exact Holds.accepted (h := []) .new this
example : (exampleTP.get (TPOp.run exampleTP {} [.get, .set 4, .set 3, .set (-8), .get])).1 = .ok 16 := by
  decide
example : (exampleTP.get (TPOp.run exampleTP {} [.set 4, .del])).1 = .ok 7 := by decide
example : ({ exampleTP with reqAssign := true }.get (TPOp.run exampleTP {} [.set 3])).1
    = .exc .unboundLocalError := by decide

end CPE.Props
