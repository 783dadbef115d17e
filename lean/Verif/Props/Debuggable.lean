import Verif.Model.Debuggable
/-
C40: debug levels and messages.
-/
namespace CPE.Props

/-- The last assignment that `int()` accepts. -/
def lastLevel : List DbgOp → Option Int
  | [] => none
  | .set v :: ops => match lastLevel ops with
    | some i => some i
    | none => match v with
      | .int i => some i
      | .bool b => some (if b then 1 else 0)
      | .numeric i => some i
      | .other _ => none
  | _ :: ops => lastLevel ops

theorem message_state (s : DbgState) (n : Int) (m e : Str) (p : Bool) : (s.debugMessage n m e p).2 = s.getLevel.2 := by
  unfold DbgState.debugMessage
  dsimp only
  by_cases h : (s.getLevel.1 : Int) ≥ n
  · rw [if_pos h]
    by_cases h0 : n > 0
    · rw [if_pos h0]
    · rw [if_neg h0]
  · rw [if_neg h]

theorem dbg_inv (ops : List DbgOp) (s : DbgState) :
    ((DbgOp.run s ops).level.getD 0 : Nat) = match lastLevel ops with
      | some i => (max 0 i).toNat
      | none => s.level.getD 0 := by
  induction ops generalizing s with
  | nil => rfl
  | cons op ops ih =>
    have h := ih (DbgOp.step s op)
    change ((DbgOp.run (DbgOp.step s op) ops).level.getD 0 : Nat) = _
    rw [h]
    cases op with
    | get =>
      simp only [lastLevel]
      cases lastLevel ops with
      | some i => rfl
      | none =>
        simp only [DbgOp.step, DbgState.getLevel]
        cases hs : s.level <;> simp [hs]
    | message n m e p =>
      simp only [lastLevel]
      cases lastLevel ops with
      | some i => rfl
      | none =>
        simp only [DbgOp.step, message_state]
        unfold DbgState.getLevel
        cases hs : s.level <;> simp [hs]
    | set v =>
      simp only [lastLevel]
      cases lastLevel ops with
      | some i => rfl
      | none =>
        simp only [DbgOp.step, DbgState.setLevel]
        cases v <;> simp [PyArg.toInt, Int.max_comm]

/-- C40: `debug_level` after any history of a new object is the last accepted assignment, at least 0; 0 if none. -/
theorem C40_level_after_history (ops : List DbgOp) :
    ((DbgOp.run {} ops).getLevel.1 : Int) = max 0 ((lastLevel ops).getD 0) := by
  have h := dbg_inv ops {}
  have h1 : (DbgOp.run {} ops).getLevel.1 = (DbgOp.run {} ops).level.getD 0 := by
    unfold DbgState.getLevel
    cases (DbgOp.run {} ops).level <;> rfl
  rw [h1, h]
  cases lastLevel ops with
  | none => rfl
  | some i => simp

/-- C40: a message of level `m` is printed if and only if `m` is at most the current level, and then as
`[D-m] message` for positive `m` with prefix, and as it is otherwise; the level does not change. -/
theorem C40_message (ops : List DbgOp) (m : Int) (msg ending : Str) (pre : Bool) :
    ((DbgOp.run {} ops).debugMessage m msg ending pre).1 =
      (if m ≤ max 0 ((lastLevel ops).getD 0) then
        some ((if 0 < m ∧ pre = true then py!"[D-" ++ (toString m.toNat).toList ++ py!"] " else []) ++ msg ++ ending)
      else none) ∧
    ((DbgOp.run {} ops).debugMessage m msg ending pre).2.getLevel.1 = (DbgOp.run {} ops).getLevel.1 := by
  have hl := C40_level_after_history ops
  generalize DbgOp.run {} ops = s at hl
  constructor
  · unfold DbgState.debugMessage
    dsimp only
    rw [hl]
    by_cases h : m ≤ max 0 ((lastLevel ops).getD 0)
    · rw [if_pos h, if_pos h]
      by_cases h0 : 0 < m
      · rw [if_pos h0]
        cases pre <;> simp [h0, DbgState.decimal]
      · rw [if_neg h0]
        simp [h0]
    · rw [if_neg h, if_neg h]
  · rw [message_state]
    unfold DbgState.getLevel
    cases hs : s.level <;> simp [hs]

example : (DbgOp.run {} [.set (.int 3), .set (.other .valueError), .message 5 py!"x" [] true]).getLevel.1 = 3 ∧
    (DbgState.debugMessage 2 py!"hi" py!"\n" true { level := some 3 }).1 = some py!"[D-2] hi\n" ∧
    (DbgState.debugMessage 4 py!"hi" py!"\n" true { level := some 3 }).1 = none ∧
    (DbgOp.run {} [.set (.int (-2))]).getLevel.1 = 0 := by decide +kernel

end CPE.Props
