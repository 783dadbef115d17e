import Verif.Spec.HandlerParameters
import Verif.Props.TypedProperty
/-
C22: HandlerParameters.
-/
namespace CPE.Props
open Spec

/-- The heap agrees with the view, and no container is referred to by two slots. -/
structure Separated (st : HPState) (v : HPView) : Prop where
  held : ∀ o s a, st.attr o s = some a → st.heap[a]? = some (v o s)
  absent : ∀ (o : Nat) (s : HPSlot), st.attr o s = none → v o s = s.default
  inj : ∀ o s o' s' a, st.attr o s = some a → st.attr o' s' = some a → o = o' ∧ s = s'
  kind : ∀ (o : Nat) (s : HPSlot), s.accepts (v o s) = true

theorem accepts_default (s : HPSlot) : s.accepts s.default = true := by cases s <;> rfl

theorem Separated.lt {st : HPState} {v : HPView} (h : Separated st v) {o s a} (ha : st.attr o s = some a) :
    a < st.heap.length := (List.getElem?_eq_some_iff.mp (h.held o s a ha)).1

/-- A new container, bound to slot `s` of `o`. -/
theorem Separated.bindNew {st : HPState} {v : HPView} (h : Separated st v) (o : Nat) (s : HPSlot) (junk : List HPContent) (c : HPContent)
    (hc : s.accepts c = true) :
    Separated ({ st with heap := st.heap ++ junk ++ [c] }.setAttr o s (some (st.heap ++ junk).length)) (v.put o s c) := by
  refine ⟨?_, ?_, ?_, ?_⟩
  · intro o' s' a ha
    simp only [HPState.setAttr] at ha
    split at ha
    · rename_i e
      cases ha
      simp [HPState.setAttr, HPView.put, e]
    · rename_i e
      have h1 := h.held o' s' a ha
      have hlt := h.lt ha
      simp only [HPState.setAttr, HPView.put, e, if_false]
      rw [List.append_assoc, List.getElem?_append_left hlt, h1]
  · intro o' s' ha
    simp only [HPState.setAttr] at ha
    split at ha
    · cases ha
    · rename_i e
      simp only [HPView.put, e, if_false]
      exact h.absent o' s' ha
  · intro o1 s1 o2 s2 a h1 h2
    simp only [HPState.setAttr] at h1 h2
    split at h1 <;> split at h2
    · rename_i e1 e2
      exact ⟨e1.1.trans e2.1.symm, e1.2.trans e2.2.symm⟩
    · cases h1
      have := h.lt h2
      simp at this; omega
    · cases h2
      have := h.lt h1
      simp at this; omega
    · exact h.inj _ _ _ _ _ h1 h2
  · intro o' s'
    simp only [HPView.put]
    split
    · rename_i e; rw [e.2]; exact hc
    · exact h.kind o' s'

/-- Extra containers that nobody refers to. -/
theorem Separated.junk {st : HPState} {v : HPView} (h : Separated st v) (l : List HPContent) :
    Separated { st with heap := st.heap ++ l } v := by
  refine ⟨fun o s a ha => ?_, h.absent, h.inj, h.kind⟩
  have := h.lt ha
  change (st.heap ++ l)[a]? = _
  rw [List.getElem?_append_left this]
  exact h.held o s a ha

theorem put_self (v : HPView) (o : Nat) (s : HPSlot) : v.put o s (v o s) = v := by
  funext o' s'
  unfold HPView.put
  split
  · rename_i e; rw [e.1, e.2]
  · rfl

/-- Reading a slot. -/
theorem Separated.get {st : HPState} {v : HPView} (h : Separated st v) (o : Nat) (s : HPSlot) :
    Separated (st.getSlot o s).2 v ∧ (st.getSlot o s).2.attr o s = some (st.getSlot o s).1 := by
  unfold HPState.getSlot
  cases ha : st.attr o s with
  | some a => exact ⟨h, ha⟩
  | none =>
    refine ⟨?_, by simp [HPState.setAttr]⟩
    have h1 := h.bindNew o s [] s.default (accepts_default s)
    rw [← h.absent o s ha, put_self] at h1
    simpa [HPState.alloc, h.absent o s ha] using h1

theorem Separated.exec {st : HPState} {v : HPView} (h : Separated st v) (op : HPOp) (hop : NoSharing op) :
    (op.exec st).1 = (viewStep v op).1 ∧ Separated (op.exec st).2 (viewStep v op).2 := by
  cases op with
  | read o s =>
    obtain ⟨h1, h2⟩ := h.get o s
    have h3 := h1.held o s _ h2
    exact ⟨by simp [HPOp.exec, viewStep, h3], h1⟩
  | mutate o s m =>
    obtain ⟨h1, h2⟩ := h.get o s
    have h3 := h1.held o s _ h2
    simp only [HPOp.exec, viewStep, h3, Option.getD_some]
    cases hm : m.apply (v o s) with
    | error e => exact ⟨rfl, h1⟩
    | ok c =>
      refine ⟨rfl, ?_, ?_, ?_, ?_⟩
      · intro o' s' a ha
        have ha' : (st.getSlot o s).2.attr o' s' = some a := ha
        change ((st.getSlot o s).2.heap.set (st.getSlot o s).1 c)[a]? = _
        by_cases e : o' = o ∧ s' = s
        · obtain ⟨rfl, rfl⟩ := e
          rw [h2] at ha'
          cases ha'
          simp [HPView.put, h1.lt h2]
        · have hne : (st.getSlot o s).1 ≠ a := by
            intro e2
            rw [← e2] at ha'
            exact e ((h1.inj _ _ _ _ _ ha' h2))
          rw [List.getElem?_set_ne hne]
          simp only [HPView.put, e, if_false]
          exact h1.held o' s' a ha'
      · intro o' s' ha
        have ha' : (st.getSlot o s).2.attr o' s' = none := ha
        have e : ¬ (o' = o ∧ s' = s) := by
          rintro ⟨rfl, rfl⟩
          rw [h2] at ha'; cases ha'
        simp only [HPView.put, e, if_false]
        exact h1.absent o' s' ha'
      · exact h1.inj
      · intro o' s'
        simp only [HPView.put]
        split
        · rename_i e
          rw [e.2]
          have hk := h.kind o s
          revert hk hm
          cases s <;> cases m <;> cases v o _ <;> simp [HPMut.apply, HPSlot.accepts] <;> (rintro rfl; rfl)
        · exact h.kind o' s'
  | assign o s c =>
    simp only [HPOp.exec, viewStep, HPState.alloc, HPState.setSlot]
    by_cases hc : s.accepts c = true
    · rw [if_pos hc, if_neg (by simp [hc])]
      cases s with
      | params =>
        refine ⟨rfl, ?_⟩
        simpa [HPState.alloc] using h.bindNew o .params [c] c hc
      | shared =>
        refine ⟨rfl, ?_⟩
        simpa using h.bindNew o .shared [] c hc
      | internal =>
        refine ⟨rfl, ?_⟩
        simpa using h.bindNew o .internal [] c hc
    · rw [if_neg hc, if_pos (by simpa using hc)]
      exact ⟨rfl, h.junk [c]⟩
  | assignFrom o s o' s' =>
    obtain ⟨h1, h2⟩ := h.get o' s'
    have h3 := h1.held o' s' _ h2
    simp only [HPOp.exec, viewStep, h3, Option.getD_some, HPState.setSlot]
    by_cases hc : s.accepts (v o' s') = true
    · rw [if_pos hc, if_neg (by simp [hc])]
      have alias : s ≠ .params → o = o' ∧ s = s' := by
        intro hs
        rcases hop with e | e | e
        · exact absurd e hs
        · subst e
          have hk := h.kind o' .params
          exfalso
          revert hk hc hs
          cases s <;> cases v o' .params <;> simp [HPSlot.accepts]
        · exact e
      have same : s ≠ .params → ((st.getSlot o' s').2.setAttr o s (some (st.getSlot o' s').1)) = (st.getSlot o' s').2 ∧
          v.put o s (v o' s') = v := by
        intro hs
        obtain ⟨rfl, rfl⟩ := alias hs
        refine ⟨?_, put_self v o s⟩
        unfold HPState.setAttr
        have : (fun o'' s'' => if o'' = o ∧ s'' = s then some (st.getSlot o s).1 else (st.getSlot o s).2.attr o'' s'') =
            (st.getSlot o s).2.attr := by
          funext o'' s''
          split
          · rename_i e; rw [e.1, e.2, h2]
          · rfl
        rw [this]
      cases s with
      | params =>
        refine ⟨rfl, ?_⟩
        simpa [HPState.alloc] using h1.bindNew o .params [] (v o' s') hc
      | shared =>
        obtain ⟨e1, e2⟩ := same (by simp)
        refine ⟨rfl, ?_⟩
        dsimp only
        rw [e1, e2]; exact h1
      | internal =>
        obtain ⟨e1, e2⟩ := same (by simp)
        refine ⟨rfl, ?_⟩
        dsimp only
        rw [e1, e2]; exact h1
    · rw [if_neg hc, if_pos (by simpa using hc)]
      exact ⟨rfl, h1⟩
  | del o s =>
    refine ⟨rfl, ?_, ?_, ?_, ?_⟩
    · intro o' s' a ha
      simp only [HPOp.exec, HPState.setAttr] at ha
      split at ha
      · cases ha
      · rename_i e
        simp only [HPOp.exec, viewStep, HPState.setAttr, HPView.put, e, if_false]
        exact h.held o' s' a ha
    · intro o' s' ha
      simp only [HPOp.exec, HPState.setAttr] at ha
      simp only [viewStep, HPView.put]
      split at ha
      · rename_i e; rw [if_pos e, e.2]
      · rename_i e; rw [if_neg e]; exact h.absent o' s' ha
    · intro o1 s1 o2 s2 a h1 h2
      simp only [HPOp.exec, HPState.setAttr] at h1 h2
      split at h1
      · cases h1
      · split at h2
        · cases h2
        · exact h.inj _ _ _ _ _ h1 h2
    · intro o' s'
      simp only [viewStep, HPView.put]
      split
      · rename_i e; rw [e.2]; exact accepts_default s
      · exact h.kind o' s'

theorem separated_new : Separated {} HPView.new :=
  ⟨(fun _ _ _ h => by cases h), (fun _ _ _ => rfl), (fun _ _ _ _ _ h => by cases h), (fun _ s => accepts_default s)⟩

theorem separated_run (ops : List HPOp) (hops : ∀ op ∈ ops, NoSharing op) : Separated (HPOp.run {} ops) (viewRun HPView.new ops) := by
  suffices ∀ st v, Separated st v → Separated (HPOp.run st ops) (viewRun v ops) from this _ _ separated_new
  induction ops with
  | nil => exact fun _ _ h => h
  | cons op ops ih =>
    intro st v h
    exact ih (fun x hx => hops x (.tail _ hx)) _ _ (h.exec op (hops op (.head _))).2

/-- C22: in any history in which no dict slot is assigned the very dict of another slot, every operation of every
object behaves as if each slot of each object had a container of its own, the defaults included. -/
theorem C22_containers_are_independent (ops : List HPOp) (op : HPOp) (hops : ∀ x ∈ ops, NoSharing x) (hop : NoSharing op) :
    (op.exec (HPOp.run {} ops)).1 = (viewStep (viewRun HPView.new ops) op).1 :=
  ((separated_run ops hops).exec op hop).1

/-- C22: operations that do not write to `o` cannot be seen through `o`. -/
theorem C22_other_objects_invisible (ops more : List HPOp) (hops : ∀ x ∈ ops ++ more, NoSharing x) (o : Nat) (s : HPSlot)
    (hmore : ∀ x ∈ more, ¬ WritesTo o x) :
    ((HPOp.read o s).exec (HPOp.run {} (ops ++ more))).1 = ((HPOp.read o s).exec (HPOp.run {} ops)).1 := by
  rw [C22_containers_are_independent _ (.read o s) hops trivial,
    C22_containers_are_independent _ (.read o s) (fun x hx => hops x (List.mem_append_left _ hx)) trivial]
  simp only [viewStep]
  have : ∀ v, viewRun v more o s = v o s := by
    clear hops
    induction more with
    | nil => exact fun _ => rfl
    | cons x more ih =>
      intro v
      change viewRun (viewStep v x).2 more o s = _
      rw [ih (fun y hy => hmore y (.tail _ hy))]
      have hx := hmore x (.head _)
      cases x with
      | read => rfl
      | mutate o' s' m =>
        simp only [viewStep]
        cases m.apply (v o' s') with
        | error e => rfl
        | ok c =>
          simp only [WritesTo] at hx
          simp [HPView.put, Ne.symm hx]
      | assign o' s' c =>
        simp only [WritesTo] at hx
        simp only [viewStep]
        split
        · simp [HPView.put, Ne.symm hx]
        · rfl
      | assignFrom o' s' o2 s2 =>
        simp only [WritesTo] at hx
        simp only [viewStep]
        split
        · simp [HPView.put, Ne.symm hx]
        · rfl
      | del o' s' =>
        simp only [WritesTo] at hx
        simp [viewStep, HPView.put, Ne.symm hx]
  unfold viewRun at this ⊢
  rw [List.foldl_append, this]

/-- Both slots refer to one container. -/
theorem attr_getSlot (st : HPState) (o o' : Nat) (s s' : HPSlot) (a : Nat) (h : st.attr o s = some a) :
    (st.getSlot o' s').2.attr o s = some a := by
  unfold HPState.getSlot
  cases ha : st.attr o' s' with
  | some b => exact h
  | none =>
    simp only [HPState.alloc, HPState.setAttr]
    rw [if_neg]
    · exact h
    · rintro ⟨rfl, rfl⟩; rw [h] at ha; cases ha

theorem attr_setSlot (st : HPState) (o o' : Nat) (s s' : HPSlot) (a b : Nat) (c : HPContent) (h : st.attr o s = some a)
    (hne : ¬ (o' = o ∧ s' = s)) : (st.setSlot o' s' b c).2.attr o s = some a := by
  have hne' : ¬ (o = o' ∧ s = s') := by rintro ⟨rfl, rfl⟩; exact hne ⟨rfl, rfl⟩
  unfold HPState.setSlot
  split
  · exact h
  · cases s' <;> simp only [HPState.alloc, HPState.setAttr, if_neg hne'] <;> exact h

theorem attr_exec (st : HPState) (op : HPOp) (o : Nat) (s : HPSlot) (a : Nat) (h : st.attr o s = some a) (hr : ¬ Rebinds o s op) :
    (op.exec st).2.attr o s = some a := by
  cases op with
  | read o' s' => exact attr_getSlot st o o' s s' a h
  | mutate o' s' m =>
    simp only [HPOp.exec]
    split
    · exact attr_getSlot st o o' s s' a h
    · exact attr_getSlot st o o' s s' a h
  | assign o' s' c => exact attr_setSlot (st.alloc c).2 o o' s s' a _ c h hr
  | assignFrom o' s' o2 s2 => exact attr_setSlot _ o o' s s' a _ _ (attr_getSlot st o o2 s s2 a h) hr
  | del o' s' =>
    simp only [Rebinds] at hr
    have hne' : ¬ (o = o' ∧ s = s') := by rintro ⟨rfl, rfl⟩; exact hr ⟨rfl, rfl⟩
    simp only [HPOp.exec, HPState.setAttr, if_neg hne']
    exact h

/-- C22: assigning `o'`'s dict to `o` makes them one dict: as long as neither slot is assigned or deleted again,
whatever else happens, both read the same. (This is how `data_shared` and `data_internal` travel from a section to
the sections it uses.) -/
theorem C22_assigned_dict_is_shared (st : HPState) (o o' : Nat) (s s' : HPSlot) (hs : s ≠ .params) (hs' : s' ≠ .params)
    (hok : ((HPOp.assignFrom o s o' s').exec st).1 = .ok (.list [])) (more : List HPOp)
    (hmore : ∀ x ∈ more, ¬ Rebinds o s x ∧ ¬ Rebinds o' s' x) :
    let st' := HPOp.run ((HPOp.assignFrom o s o' s').exec st).2 more
    ((HPOp.read o s).exec st').1 = ((HPOp.read o' s').exec st').1 := by
  have hattr : ∃ a, ((HPOp.assignFrom o s o' s').exec st).2.attr o s = some a ∧
      ((HPOp.assignFrom o s o' s').exec st).2.attr o' s' = some a := by
    have h2 : (st.getSlot o' s').2.attr o' s' = some (st.getSlot o' s').1 := by
      unfold HPState.getSlot
      cases ha : st.attr o' s' with
      | some a => exact ha
      | none => simp [HPState.setAttr]
    simp only [HPOp.exec] at hok ⊢
    unfold HPState.setSlot at hok ⊢
    split at hok
    · simp [Except.map] at hok
    · rename_i hc
      rw [if_neg hc]
      refine ⟨(st.getSlot o' s').1, ?_, ?_⟩
      · cases s with
        | params => exact absurd rfl hs
        | shared => simp [HPState.setAttr]
        | internal => simp [HPState.setAttr]
      · cases s with
        | params => exact absurd rfl hs
        | shared =>
          simp only [HPState.setAttr]
          split
          · rfl
          · exact h2
        | internal =>
          simp only [HPState.setAttr]
          split
          · rfl
          · exact h2
  obtain ⟨a, h1, h2⟩ := hattr
  clear hok
  generalize ((HPOp.assignFrom o s o' s').exec st).2 = st0 at h1 h2
  induction more generalizing st0 with
  | nil =>
    dsimp only
    simp only [HPOp.run, List.foldl_nil, HPOp.exec, HPState.getSlot, h1, h2]
    have : s.default = s'.default := by cases s <;> cases s' <;> first | rfl | contradiction
    rw [this]
  | cons x more ih =>
    obtain ⟨r1, r2⟩ := hmore x (.head _)
    exact ih (fun y hy => hmore y (.tail _ hy)) _ (attr_exec st0 x o s a h1 r1) (attr_exec st0 x o' s' a h2 r2)

/-- Two objects, their defaults, and a mutation through one of them. -/
example :
    let st := HPOp.run {} [.mutate 0 .shared (.put py!"k" py!"v"), .mutate 1 .params (.push py!"x")]
    ((HPOp.read 0 .shared).exec st).1 = .ok (.dict [(py!"k", py!"v")]) ∧ ((HPOp.read 1 .shared).exec st).1 = .ok (.dict []) ∧
    ((HPOp.read 0 .params).exec st).1 = .ok (.list []) := by
  refine ⟨?_, ?_, ?_⟩ <;> rfl

/-- A shared dict. -/
example :
    let st := HPOp.run {} [.assignFrom 1 .shared 0 .shared, .mutate 1 .shared (.put py!"k" py!"v")]
    ((HPOp.read 0 .shared).exec st).1 = .ok (.dict [(py!"k", py!"v")]) := by rfl

/-! ### the typed slots -/

theorem field_inv (fld : HPField) (ops : List (TPOp HPVal)) :
    ∀ v, (TPOp.run fld.config {} ops).value = some v → AllowedIn fld v := by
  suffices ∀ st : TPState HPVal, (∀ v, st.value = some v → AllowedIn fld v) →
      ∀ v, (TPOp.run fld.config st ops).value = some v → AllowedIn fld v from this {} (fun v h => by cases h)
  induction ops with
  | nil => exact fun _ h => h
  | cons op ops ih =>
    intro st h
    refine ih (TPOp.step fld.config st op) ?_
    intro v hv
    cases op with
    | get =>
      obtain ⟨val, st⟩ := st
      cases val with
      | some x =>
        have : (TPOp.step fld.config ⟨some x, st⟩ .get).value = some x := by
          cases fld <;> cases st <;> rfl
        rw [this] at hv
        exact h v hv
      | none =>
        cases fld <;> cases st <;> simp [TPOp.step, TPConfig.get, HPField.config] at hv <;> subst hv
        · exact .inl rfl
        · exact .inl rfl
        · exact ⟨_, _, rfl⟩
        · exact ⟨_, _, rfl⟩
        · exact ⟨_, rfl⟩
        · exact ⟨_, rfl⟩
        · exact .inr ⟨_, rfl⟩
        · exact .inr ⟨_, rfl⟩
        · exact ⟨_, rfl⟩
        · exact ⟨_, rfl⟩
    | set x =>
      simp only [TPOp.step, TPConfig.set] at hv
      cases hc : fld.config.convert x with
      | error e => rw [hc] at hv; exact h v hv
      | ok y =>
        rw [hc] at hv
        simp only [Option.some.injEq] at hv
        subst hv
        cases fld <;> cases x <;>
          simp [TPConfig.convert, TPConfig.castValue, TPConfig.transformValue, TPConfig.validateValue, HPField.config] at hc
        case sectionRoot.str => subst hc; exact .inr ⟨_, rfl⟩
        case op.str => subst hc; exact ⟨_, rfl⟩
        case value.none => subst hc; exact .inl rfl
        case value.str => subst hc; exact .inr ⟨_, rfl⟩
        case handlerName.str => subst hc; exact ⟨_, rfl⟩
        case rawOption.tuple l =>
          by_cases hl : l.length = 2
          · simp [hl] at hc
            subst hc
            match l, hl with
            | [a, b], _ => exact ⟨a, b, rfl⟩
          · simp [hl] at hc
    | del => cases hv

/-- C22: whatever is assigned or deleted, accepted or refused, a read of a slot gives a value of the slot's type:
`raw_option` is a pair, `op` and `handler_name` are texts, `value` and `section_root` texts or None. -/
theorem C22_slots_are_typed (fld : HPField) (ops : List (TPOp HPVal)) :
    ∃ v, (fld.config.get (TPOp.run fld.config {} ops)).1 = .ok v ∧ AllowedIn fld v := by
  have h := field_inv fld (ops ++ [.get])
  have hrun : TPOp.run fld.config {} (ops ++ [.get]) = (fld.config.get (TPOp.run fld.config {} ops)).2 := by
    simp [TPOp.run, List.foldl_append, TPOp.step]
  rw [hrun] at h
  generalize TPOp.run fld.config {} ops = st at h
  obtain ⟨val, set⟩ := st
  cases val with
  | some x => exact ⟨x, by cases fld <;> cases set <;> rfl, h x (by cases fld <;> cases set <;> rfl)⟩
  | none =>
    cases fld <;> cases set <;> exact ⟨_, rfl, h _ rfl⟩

/-- C22: an assignment of a pair is kept, anything else is refused and changes nothing. -/
theorem C22_raw_option (st : TPState HPVal) (v : HPVal) :
    (HPField.rawOption.config.set v st) = match v with
      | .tuple [a, b] => (.ok (), { value := some (.tuple [a, b]), isSet := some true })
      | .tuple _ => (.exc .valueError, st)
      | _ => (.exc .typeError, st) := by
  cases v with
  | tuple l =>
    match l with
    | [] => rfl
    | [a] => rfl
    | [a, b] => rfl
    | a :: b :: c :: l =>
      simp [TPConfig.set, TPConfig.convert, TPConfig.castValue, TPConfig.transformValue, TPConfig.validateValue, HPField.config]
  | _ => rfl

end CPE.Props
