import Verif.Proofs.Replay
/-
Relations preserved by every run of the parser, whatever its outcome.
-/
namespace CPE
open Spec
variable {δ ω : Type}

/-- Every run of `m` relates the world before to the world after. -/
def Pres {W α : Type} (R : W → W → Prop) (m : M W α) : Prop := ∀ w, R w (m w).2

/-- A preorder on worlds that holds of every primitive step of a parse of `root`. -/
structure StepRel (E : Env δ ω) (root : Str) (R : World δ ω → World δ ω → Prop) : Prop where
  refl : ∀ w, R w w
  trans : ∀ {a b c}, R a b → R b c → R a c
  log : ∀ l, Pres R (logAdd E l)
  event : ∀ ev e, Pres R (ecEvent E ev e)
  body : ∀ h c, Pres R (runHandlerBody (δ := δ) (ω := ω) h c)
  add : ∀ s, (E.cfg.optionNames s).isSome → Pres R (addSection s)
  store : ∀ k v, Pres R (dataSet root k v)
  proc : ∀ w p, R w { w with processed := p }

variable {E : Env δ ω} {root : Str} {R : World δ ω → World δ ω → Prop}

theorem Pres.bind {W α β : Type} {R : W → W → Prop} {m : M W α} {f : α → M W β}
    (trans : ∀ {a b c}, R a b → R b c → R a c) (h : Pres R m) (hf : ∀ a, Pres R (f a)) :
    Pres R (m >>= f) := by
  intro w
  have h1 := h w
  rw [M.bind_def]
  cases hm : m w with
  | mk o w' =>
    rw [hm] at h1
    cases o with
    | ok a => exact trans h1 (hf a w')
    | exc e => exact h1
    | diverge => exact h1

namespace StepRel
variable (S : StepRel E root R)
include S

theorem b {α β : Type} {m : M (World δ ω) α} {f : α → M (World δ ω) β} (h : Pres R m) (hf : ∀ a, Pres R (f a)) :
    Pres R (m >>= f) := Pres.bind S.trans h hf

theorem p {α : Type} (a : α) : Pres R (pure a : M (World δ ω) α) := fun w => S.refl w
theorem r {α : Type} (e : PyExc) : Pres R (M.raise e : M (World δ ω) α) := fun w => S.refl w
theorem rd : Pres R (M.read : M (World δ ω) (World δ ω)) := fun w => S.refl w

theorem ofExcept {α : Type} (x : Except PyExc α) : Pres R (M.ofExcept x : M (World δ ω) α) := by
  cases x <;> exact fun w => S.refl w

theorem forEach {ι : Type} (xs : List ι) {f : ι → M (World δ ω) Unit} (hf : ∀ a, Pres R (f a)) :
    Pres R (M.forEach xs f) := by
  induction xs with
  | nil => exact S.p ()
  | cons x xs ih => rw [M.forEach_cons]; exact S.b (hf x) (fun _ => ih)

theorem checkRval (r : Ret) : Pres R (checkRval E r) := by
  unfold CPE.checkRval
  cases r with
  | notInt => exact S.r _
  | int i =>
    simp only
    split
    · exact S.p ()
    · split <;> exact S.event _ _

theorem operationHandler (c : HCall) {m : M (World δ ω) Ret} (h : Pres R m) :
    Pres R (operationHandler E c m) :=
  S.b (S.log _) fun _ => S.b h fun _ => S.b (S.log _) fun _ => S.checkRval _

theorem callHandler (h : Handler δ ω) (c : HCall) : Pres R (callHandler E h c) := by
  unfold CPE.callHandler
  split
  · exact S.operationHandler c (S.body h c)
  · exact S.b (S.body h c) fun _ => S.p ()

theorem launchGeneric (s k : Str) (v : Option Str) : Pres R (launchGeneric E root s k v) :=
  S.b (S.store k v) fun _ => S.operationHandler _ (S.p _)

theorem useBody {rec : Str → M (World δ ω) Unit} (h : ∀ t, Pres R (rec t)) (c : HCall) :
    Pres R (useBody E rec c) := by
  unfold CPE.useBody
  cases c.params with
  | nil => exact S.r _
  | cons t ts =>
    refine S.b S.rd fun w => ?_
    split
    · exact S.b (S.log _) fun _ => S.b (S.log _) fun _ => S.b (S.event _ _) fun _ => S.p _
    · exact S.b (h t) fun _ => S.p _

theorem locate (op : Str) : Pres R (locateHandler E op) := by
  unfold CPE.locateHandler
  dsimp only
  have : ∀ (a : Option (Handler δ ω)) (b : Option (Impl δ ω)), Pres R (match a, b with
    | some h, _ => pure (some (py!"handler_" ++ opOfToken op, Impl.user h))
    | none, some i => pure (some (py!"_handler_" ++ opOfToken op, i))
    | none, none => pure none : M (World δ ω) (Option (Str × Impl δ ω))) := by
    intro a b
    cases a <;> cases b <;> exact S.p _
  split
  · exact S.b (S.event _ _) fun _ => this _ _
  · exact this _ _

theorem processOption {rec : Str → M (World δ ω) Unit} (h : ∀ t, Pres R (rec t)) (s k : Str) :
    Pres R (processOption E rec root s k) := by
  unfold CPE.processOption
  refine S.b (S.ofExcept _) fun v => S.b (S.log _) fun _ => S.b (S.ofExcept _) fun toks => ?_
  cases toks with
  | nil => exact S.r _
  | cons t ps =>
    dsimp only
    split
    · exact S.launchGeneric _ _ _
    · refine S.b (S.log _) fun _ => S.b (S.locate _) fun hh => ?_
      cases hh with
      | none => exact S.launchGeneric _ _ _
      | some x =>
        obtain ⟨name, impl⟩ := x
        cases impl with
        | user g => exact S.callHandler _ _
        | use => exact S.operationHandler _ (S.useBody h _)

theorem parseMain {rec : Str → M (World δ ω) Unit} (h : ∀ t, Pres R (rec t)) (s : Str) (fin : Bool) :
    Pres R (parseMain E rec root s fin) := by
  unfold CPE.parseMain
  refine S.b (S.log _) fun _ => ?_
  cases ho : E.cfg.optionNames s with
  | none => exact S.r _
  | some keys =>
    dsimp only
    refine S.b (S.add s (by simp [ho])) fun _ => S.b (fun w => S.proc w _) fun _ =>
      S.b (S.forEach keys fun k => S.processOption h s k) fun _ => ?_
    have tail : Pres R (do
        let w ← M.read
        if s ∈ w.processed then
          M.modify fun w => { w with processed := setDel w.processed s }
          logAdd E (.sectionExit s)
        else M.raise .keyError : M (World δ ω) Unit) := by
      refine S.b S.rd fun w => ?_
      split
      · exact S.b (fun w => S.proc w _) fun _ => S.log _
      · exact S.r _
    split
    · exact S.b (S.callHandler _ _) fun _ => tail
    · exact tail

theorem parseR (n : Nat) (s : Str) (init fin : Bool) : Pres R (parseR E n root s init fin) := by
  induction n generalizing s init fin with
  | zero => exact fun w => S.refl w
  | succ n ih =>
    rw [CPE.parseR]
    have hm := S.parseMain (fun t => ih t true false) s fin
    split
    · refine S.b (S.callHandler _ _) fun _ => ?_
      split
      · exact S.b (ih _ _ _) fun _ => hm
      · exact hm
    · exact hm

end StepRel

/-! ### Instances -/

theorem runHandlerBody_world (h : Handler δ ω) (c : HCall) (w : World δ ω) :
    (runHandlerBody h c w).2 =
      { w with shared := (h.run c w.shared w.self).2.1, self := (h.run c w.shared w.self).2.2 } := by
  unfold runHandlerBody
  dsimp only
  split <;> rfl

theorem stepRel_checked (E : Env δ ω) (root : Str) :
    StepRel E root (fun w w' => w'.checked = w.checked) where
  refl _ := rfl
  trans h h' := h'.trans h
  log l w := by unfold logAdd; simp only [M.modify_apply]; split <;> rfl
  event _ _ _ := rfl
  body h c w := by
    rw [runHandlerBody_world]
  add s _ w := by rw [addSection_apply]
  store k v w := by
    unfold dataSet
    rw [M.bind_ok (addSection_apply root w)]; rfl
  proc _ _ := rfl

/-- Frame: data of sections other than the root. -/
def FrameRel (root : Str) (w w' : World δ ω) : Prop :=
  ∀ t, t ≠ root → Dict.get? w'.data t = Dict.get? w.data t ∨
    (Dict.get? w.data t = none ∧ Dict.get? w'.data t = some [])

theorem get?_addSection (s t : Str) (d : Dict Str Options) :
    Dict.get? (if (Dict.get? d s).isSome then d else d ++ [(s, [])]) t =
      if t = s ∧ Dict.get? d s = none then some [] else Dict.get? d t := by
  cases h : Dict.get? d s with
  | some v => simp
  | none => simp [get?_append_single _ _ _ _ h]

theorem dataSet_apply (root k : Str) (v : Option Str) (w : World δ ω) :
    dataSet root k v w = (.ok (), { w with data :=
        (Dict.set w.data root (Dict.set ((Dict.get? w.data root).getD []) k v)) }) := by
  unfold dataSet
  rw [M.bind_ok (addSection_apply root w), M.modify_apply]
  cases h : Dict.get? w.data root with
  | some v => simp [h]
  | none =>
    have h1 : w.data ++ [(root, [])] = Dict.set w.data root [] := (Dict.set_of_get?_none _ _ _ h).symm
    simp [h1, Dict.get?_set_self, Dict.set_set]

theorem stepRel_frame (E : Env δ ω) (root : Str) :
    StepRel E root (fun w w' => ∀ t, t ≠ root → Dict.get? w'.data t = Dict.get? w.data t ∨
      (Dict.get? w.data t = none ∧ Dict.get? w'.data t = some [] ∧ (E.cfg.optionNames t).isSome)) where
  refl _ _ _ := .inl rfl
  trans := by
    intro a b c h h' t ht
    rcases h t ht with h | ⟨h1, h2, h3⟩ <;> rcases h' t ht with g | ⟨g1, g2, g3⟩
    · exact .inl (g.trans h)
    · exact .inr ⟨by rw [← h]; exact g1, g2, g3⟩
    · exact .inr ⟨h1, by rw [g, h2], h3⟩
    · rw [h2] at g1; cases g1
  log l w := by unfold logAdd; simp only [M.modify_apply]; split <;> exact fun _ _ => .inl rfl
  event _ _ _ _ _ := .inl rfl
  body h c w := by
    rw [runHandlerBody_world]
    exact fun _ _ => .inl rfl
  add s hs w t ht := by
    rw [addSection_apply]
    simp only [get?_addSection]
    by_cases h : t = s ∧ Dict.get? w.data s = none
    · rw [if_pos h]; obtain ⟨rfl, h⟩ := h; exact .inr ⟨h, rfl, hs⟩
    · rw [if_neg h]; exact .inl rfl
  store k v w t ht := by
    rw [dataSet_apply]
    exact .inl (Dict.get?_set_ne _ _ ht)
  proc _ _ _ _ := .inl rfl

/-- Notices are only added. -/
theorem stepRel_out (E : Env δ ω) (root : Str) :
    StepRel E root (fun w w' => w.out <+: w'.out) where
  refl _ := List.prefix_refl _
  trans h h' := h.trans h'
  log l w := by unfold logAdd; simp only [M.modify_apply]; split <;> exact List.prefix_refl _
  event ev e w := ⟨_, rfl⟩
  body h c w := by
    rw [runHandlerBody_world]
    exact List.prefix_refl _
  add s _ w := by rw [addSection_apply]; exact List.prefix_refl _
  store k v w := by rw [dataSet_apply]; exact List.prefix_refl _
  proc _ _ := List.prefix_refl _

/-- Stored keys never disappear; sections never disappear. -/
theorem stepRel_grow (E : Env δ ω) (root : Str) :
    StepRel E root (fun w w' => ∀ t k, (∃ d, Dict.get? w.data t = some d ∧ (Dict.get? d k).isSome) →
      ∃ d, Dict.get? w'.data t = some d ∧ (Dict.get? d k).isSome) where
  refl _ _ _ h := h
  trans h h' t k x := h' t k (h t k x)
  log l w := by unfold logAdd; simp only [M.modify_apply]; split <;> exact fun _ _ h => h
  event _ _ _ _ _ h := h
  body h c w := by
    rw [runHandlerBody_world]
    exact fun _ _ h => h
  add s _ w t k := by
    rintro ⟨d, h1, h2⟩
    rw [addSection_apply]
    simp only [get?_addSection]
    refine ⟨d, ?_, h2⟩
    rw [if_neg]; exact h1
    rintro ⟨rfl, h⟩
    rw [h1] at h; cases h
  store k v w t k' := by
    rintro ⟨d, h1, h2⟩
    rw [dataSet_apply]
    by_cases ht : t = root
    · subst ht
      refine ⟨_, Dict.get?_set_self _ _ _, ?_⟩
      rw [h1, Option.getD_some, Dict.get?_set]
      split
      · rfl
      · exact h2
    · exact ⟨d, by simpa [Dict.get?_set_ne _ _ ht] using h1, h2⟩
  proc _ _ _ _ h := h

/-- Without debugging the log is not touched. -/
theorem stepRel_nolog (E : Env δ ω) (root : Str) (hd : E.debug = 0) :
    StepRel E root (fun w w' => w'.log = w.log) where
  refl _ := rfl
  trans h h' := h'.trans h
  log l w := by unfold logAdd; simp [M.modify_apply, hd]
  event _ _ _ := rfl
  body h c w := by
    rw [runHandlerBody_world]
  add s _ w := by rw [addSection_apply]
  store k v w := by rw [dataSet_apply]
  proc _ _ := rfl

end CPE
