import Verif.Proofs.Access
/-
What a parse prints: nothing at level 0 and nothing when warnings are silenced.
-/
namespace CPE
variable {δ ω : Type} {E : Env δ ω}

/-- `m` only adds notices with `P` to what was printed. -/
def Prints {α : Type} (P : Notice → Prop) (m : M (World δ ω) α) : Prop := ∀ w, ∃ l, (m w).2.out = w.out ++ l ∧ ∀ x ∈ l, P x

variable {P : Notice → Prop}

theorem Prints.quiet {α : Type} {m : M (World δ ω) α} (h : ∀ w, (m w).2.out = w.out) : Prints P m := fun w => ⟨[], by simp [h], by simp⟩

theorem Prints.bind {α β : Type} {m : M (World δ ω) α} {f : α → M (World δ ω) β} (h : Prints P m) (hf : ∀ a, Prints P (f a)) :
    Prints P (m >>= f) := by
  intro w
  obtain ⟨l, h1, h2⟩ := h w
  rw [M.bind_def]
  cases hm : m w with
  | mk o w' =>
    rw [hm] at h1
    cases o with
    | ok a =>
      obtain ⟨l', h3, h4⟩ := hf a w'
      refine ⟨l ++ l', ?_, ?_⟩
      · dsimp only at h1 h3 ⊢
        rw [h3, h1, List.append_assoc]
      · intro x hx
        rcases List.mem_append.1 hx with hx | hx
        · exact h2 x hx
        · exact h4 x hx
    | exc e => exact ⟨l, h1, h2⟩
    | diverge => exact ⟨l, h1, h2⟩

theorem Prints.pure {α : Type} (a : α) : Prints P (Pure.pure a : M (World δ ω) α) := .quiet fun _ => rfl
theorem Prints.raise {α : Type} (e : PyExc) : Prints P (M.raise e : M (World δ ω) α) := .quiet fun _ => rfl
theorem Prints.read : Prints P (M.read : M (World δ ω) _) := .quiet fun _ => rfl
theorem Prints.ofExcept {α : Type} (x : Except PyExc α) : Prints P (M.ofExcept x : M (World δ ω) α) := by
  cases x <;> exact .quiet fun _ => rfl

theorem Prints.log (l : LogEntry) : Prints P (logAdd E l) := by
  refine .quiet fun w => ?_
  unfold logAdd
  rw [M.modify_apply]
  dsimp only
  split <;> rfl

theorem Prints.forEach {ι : Type} (xs : List ι) {g : ι → M (World δ ω) Unit} (h : ∀ x, Prints P (g x)) : Prints P (M.forEach xs g) := by
  induction xs with
  | nil => exact .quiet fun _ => rfl
  | cons x xs ih => rw [M.forEach_cons]; exact (h x).bind fun _ => ih

/-- The notices that the events of the settings of `E` may print. -/
def Printable (E : Env δ ω) (x : Notice) : Prop :=
  0 < E.level ∧ E.level < x.event.levelReq ∧ E.silentWarnings = false ∧ x.event ≠ .silent ∧ x.compact = E.compactWarnings

theorem Prints.event (ev : Event) (e : PyExc) : Prints (Printable E) (ecEvent E ev e) := by
  intro w
  refine ⟨(fireEvent E.level E.silentWarnings E.compactWarnings ev e).2, rfl, ?_⟩
  unfold fireEvent
  intro x hx
  split at hx
  · simp at hx
  · split at hx
    · split at hx
      · rename_i h1 h2 h3
        rw [List.mem_singleton.1 hx]
        simp only [Bool.and_eq_true, Bool.not_eq_true', decide_eq_true_eq] at h3
        exact ⟨h2, Nat.lt_of_not_le h1, h3.1, h3.2, rfl⟩
      · simp at hx
    · simp at hx

theorem Prints.checkRval (r : Ret) : Prints (Printable E) (checkRval E r) := by
  unfold CPE.checkRval
  cases r with
  | notInt => exact .raise _
  | int i =>
    dsimp only
    split
    · exact .pure _
    · split <;> exact .event _ _

theorem Prints.operation (c : HCall) {body : M (World δ ω) Ret} (h : Prints (Printable E) body) :
    Prints (Printable E) (operationHandler E c body) :=
  (Prints.log _).bind fun _ => h.bind fun r => (Prints.log _).bind fun _ => .checkRval r

theorem Prints.body (h : Handler δ ω) (c : HCall) : Prints P (runHandlerBody h c) := by
  refine .quiet fun w => ?_
  unfold runHandlerBody
  dsimp only
  split <;> rfl

theorem Prints.call (h : Handler δ ω) (c : HCall) : Prints (Printable E) (callHandler E h c) := by
  unfold callHandler
  split
  · exact .operation c (.body h c)
  · exact (Prints.body h c).bind fun _ => .pure _

theorem Prints.addSection (s : Str) : Prints P (addSection (δ := δ) (ω := ω) s) := by
  refine .quiet fun w => ?_
  unfold CPE.addSection
  rw [M.modify_apply]
  dsimp only
  split <;> rfl

theorem Prints.generic (root sec k : Str) (v : Option Str) : Prints (Printable E) (launchGeneric E root sec k v) :=
  ((Prints.addSection root).bind fun _ => .quiet fun _ => rfl).bind fun _ => .operation _ (.pure _)

theorem Prints.locate (op : Str) : Prints (Printable E) (locateHandler E op) := by
  unfold locateHandler
  have last : Prints (Printable E) (match publicMethod E (opOfToken op), E.priv (opOfToken op) with
      | some h, _ => Pure.pure (some (py!"handler_" ++ opOfToken op, .user h))
      | none, some i => Pure.pure (some (py!"_handler_" ++ opOfToken op, i))
      | none, none => Pure.pure none : M (World δ ω) (Option (Str × Impl δ ω))) := by
    cases publicMethod E (opOfToken op) <;> cases E.priv (opOfToken op) <;> exact .pure _
  dsimp only
  split
  · exact (Prints.event _ _).bind fun _ => last
  · exact last

theorem Prints.impl {rec : Str → M (World δ ω) Unit} (hr : ∀ t, Prints (Printable E) (rec t)) (i : Impl δ ω) (c : HCall) :
    Prints (Printable E) (callImpl E rec i c) := by
  cases i with
  | user h => exact .call h c
  | use =>
    refine .operation c ?_
    unfold useBody
    split
    · exact .raise _
    · refine Prints.read.bind fun w => ?_
      split
      · exact ((Prints.log _).bind fun _ => (Prints.log _).bind fun _ => .event _ _).bind fun _ => .pure _
      · exact (hr _).bind fun _ => .pure _

theorem Prints.option {rec : Str → M (World δ ω) Unit} (hr : ∀ t, Prints (Printable E) (rec t)) (root sec key : Str) :
    Prints (Printable E) (processOption E rec root sec key) := by
  unfold processOption
  refine (Prints.ofExcept _).bind fun v => (Prints.log _).bind fun _ => (Prints.ofExcept _).bind fun toks => ?_
  split
  · exact .raise _
  · split
    · exact .generic _ _ _ _
    · refine (Prints.log _).bind fun _ => (Prints.locate _).bind fun h => ?_
      split
      · exact .generic _ _ _ _
      · exact .impl hr _ _

theorem Prints.main {rec : Str → M (World δ ω) Unit} (hr : ∀ t, Prints (Printable E) (rec t)) (root sec : Str) (fin : Bool) :
    Prints (Printable E) (parseMain E rec root sec fin) := by
  unfold parseMain
  refine (Prints.log _).bind fun _ => ?_
  split
  · exact .raise _
  · refine (Prints.addSection _).bind fun _ => Prints.bind (.quiet fun _ => rfl) fun _ => (Prints.forEach _ fun k => .option hr root sec k).bind fun _ => ?_
    have last : Prints (Printable E) (do
        let w ← M.read
        if sec ∈ w.processed then do
          M.modify fun w => { w with processed := setDel w.processed sec }
          logAdd E (.sectionExit sec)
        else M.raise .keyError : M (World δ ω) Unit) := by
      refine Prints.read.bind fun w => ?_
      split
      · exact Prints.bind (.quiet fun _ => rfl) fun _ => .log _
      · exact .raise _
    split
    · exact (Prints.call _ _).bind fun _ => last
    · exact last

theorem Prints.parseR (n : Nat) (root sec : Str) (i f : Bool) : Prints (Printable E) (parseR E n root sec i f) := by
  induction n generalizing sec i f with
  | zero => exact .quiet fun _ => rfl
  | succ n ih =>
    unfold CPE.parseR
    split
    · refine (Prints.call _ _).bind fun _ => ?_
      split
      · exact (ih _ _ _).bind fun _ => .main (fun t => ih t true false) root sec f
      · exact .main (fun t => ih t true false) root sec f
    · exact .main (fun t => ih t true false) root sec f

theorem Prints.parseSection (n : Nat) (s : Str) (i f : Bool) (o : Obj δ ω) :
    ∃ l, (parseSection E n s i f o).2.out = o.out ++ l ∧ ∀ x ∈ l, Printable E x := by
  by_cases hs : s = []
  · subst hs; exact ⟨[], (List.append_nil _).symm, by simp⟩
  · rw [parseSection_apply E n hs]
    obtain ⟨l, h1, h2⟩ := Prints.parseR (E := E) n s s i f { toCore := startCore E s o.toCore, processed := [], log := [] }
    refine ⟨l, ?_, h2⟩
    rcases hx : CPE.parseR E n s s i f { toCore := startCore E s o.toCore, processed := [], log := [] } with ⟨x | x | _, w'⟩ <;>
      rw [hx] at h1 <;> exact h1

/-- All that is printed, in any history, is printable. -/
theorem prints_inv (E : Env δ ω) (n : Nat) (l₀ : List Notice) :
    ObjInv E n (fun _ _ _ => True) (fun o => ∃ l, o.out = l₀ ++ l ∧ ∀ x ∈ l, Printable E x) where
  full _ := trivial
  parse s i f o _ := by
    rintro ⟨l, h1, h2⟩
    obtain ⟨l', h3, h4⟩ := Prints.parseSection (E := E) n s i f o
    refine ⟨l ++ l', by rw [h3, h1, List.append_assoc], fun x hx => ?_⟩
    rcases List.mem_append.1 hx with hx | hx
    · exact h2 x hx
    · exact h4 x hx
  mark _ _ h := h
  event ev e o := by
    rintro ⟨l, h1, h2⟩
    obtain ⟨l', h3, h4⟩ := Prints.event (E := E) ev e o.toWorld
    refine ⟨l ++ l', ?_, fun x hx => ?_⟩
    · rw [liftW_apply]
      show (ecEvent E ev e o.toWorld).2.out = _
      rw [h3, h1, List.append_assoc]
    · rcases List.mem_append.1 hx with hx | hx
      · exact h2 x hx
      · exact h4 x hx
  write _ _ _ h _ := h
  put _ _ _ _ h := h

end CPE
