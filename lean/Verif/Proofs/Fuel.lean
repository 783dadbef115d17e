import Verif.Proofs.Success
/-
More fuel never changes a run that ends.
-/
namespace CPE
open Spec
variable {δ ω : Type}

/-- `m'` agrees with `m` wherever `m` ends. -/
def Ext {W α : Type} (m m' : M W α) : Prop := ∀ w, (m w).1 ≠ .diverge → m' w = m w

theorem Ext.refl {W α : Type} (m : M W α) : Ext m m := fun _ _ => rfl

theorem Ext.bind {W α β : Type} {m m' : M W α} {f f' : α → M W β} (h : Ext m m') (hf : ∀ a, Ext (f a) (f' a)) :
    Ext (m >>= f) (m' >>= f') := by
  intro w hw
  rw [M.bind_def] at hw
  rw [M.bind_def, M.bind_def]
  have := h w
  cases hm : m w with
  | mk o w1 =>
    rw [hm] at this hw
    cases o with
    | ok a =>
      rw [this (by simp)]
      exact hf a w1 hw
    | exc e => rw [this (by simp)]
    | diverge => simp at hw

theorem Ext.forEach {W ι : Type} {f f' : ι → M W Unit} (xs : List ι) (hf : ∀ a, Ext (f a) (f' a)) :
    Ext (M.forEach xs f) (M.forEach xs f') := by
  induction xs with
  | nil => exact Ext.refl _
  | cons x xs ih => rw [M.forEach_cons, M.forEach_cons]; exact (hf x).bind (fun _ => ih)

theorem Ext.operationHandler {E : Env δ ω} {c : HCall} {m m' : M (World δ ω) Ret} (h : Ext m m') :
    Ext (operationHandler E c m) (operationHandler E c m') := by
  unfold CPE.operationHandler
  exact (Ext.refl _).bind fun _ => h.bind fun _ => Ext.refl _

theorem Ext.useBody {E : Env δ ω} {c : HCall} {rec rec' : Str → M (World δ ω) Unit} (h : ∀ t, Ext (rec t) (rec' t)) :
    Ext (useBody E rec c) (useBody E rec' c) := by
  unfold CPE.useBody
  cases c.params with
  | nil => exact Ext.refl _
  | cons t ts =>
    refine (Ext.refl _).bind fun w => ?_
    split
    · exact Ext.refl _
    · exact (h t).bind fun _ => Ext.refl _

theorem Ext.processOption {E : Env δ ω} {root s k : Str} {rec rec' : Str → M (World δ ω) Unit}
    (h : ∀ t, Ext (rec t) (rec' t)) : Ext (processOption E rec root s k) (processOption E rec' root s k) := by
  unfold CPE.processOption
  refine (Ext.refl _).bind fun v => (Ext.refl _).bind fun _ => (Ext.refl _).bind fun toks => ?_
  cases toks with
  | nil => exact Ext.refl _
  | cons t ps =>
    dsimp only
    split
    · exact Ext.refl _
    · refine (Ext.refl _).bind fun _ => (Ext.refl _).bind fun hh => ?_
      cases hh with
      | none => exact Ext.refl _
      | some x =>
        obtain ⟨name, impl⟩ := x
        cases impl with
        | user g => exact Ext.refl _
        | use => exact Ext.operationHandler (Ext.useBody h)

theorem Ext.parseMain {E : Env δ ω} {root s : Str} {fin : Bool} {rec rec' : Str → M (World δ ω) Unit}
    (h : ∀ t, Ext (rec t) (rec' t)) : Ext (parseMain E rec root s fin) (parseMain E rec' root s fin) := by
  unfold CPE.parseMain
  refine (Ext.refl _).bind fun _ => ?_
  cases E.cfg.optionNames s with
  | none => exact Ext.refl _
  | some keys =>
    dsimp only
    exact (Ext.refl _).bind fun _ => (Ext.refl _).bind fun _ =>
      (Ext.forEach keys fun k => Ext.processOption h).bind fun _ => Ext.refl _

theorem parseR_ext {E : Env δ ω} (n : Nat) (root s : Str) (init fin : Bool) :
    Ext (parseR E n root s init fin) (parseR E (n + 1) root s init fin) := by
  induction n generalizing s init fin with
  | zero => intro w hw; exact absurd rfl hw
  | succ n ih =>
    rw [parseR, parseR]
    have hm := Ext.parseMain (E := E) (root := root) (s := s) (fin := fin) (fun t => ih t true false)
    split
    · refine (Ext.refl _).bind fun _ => ?_
      split
      · exact (ih _ _ _).bind fun _ => hm
      · exact hm
    · exact hm

theorem parseR_fuel_mono {E : Env δ ω} {n m : Nat} {root s : Str} {init fin : Bool} {w : World δ ω}
    (h : (parseR E n root s init fin w).1 ≠ .diverge) (hm : n ≤ m) :
    parseR E m root s init fin w = parseR E n root s init fin w := by
  induction m with
  | zero => have : n = 0 := by omega
            subst this; rfl
  | succ m ih =>
    by_cases he : n = m + 1
    · subst he; rfl
    · have := ih (by omega)
      rw [← this] at h ⊢
      exact parseR_ext m root s init fin w h

/-- A successful parse is the replay of its trace. -/
theorem parse_success {E : Env δ ω} {n : Nat} {root : Str} {init fin : Bool} {w w' : World δ ω} {evs : List (Ev δ ω)}
    (hok : parseR E n root root init fin w = (.ok (), w')) (hw : w.processed = [])
    (ht : ParseTrace E root init fin evs) :
    replay E root evs w.toCore = (none, w'.toCore) := by
  have hm := parseR_fuel_mono (m := max n (E.cfg.sectionNames.length + 3)) (by rw [hok]; simp) (by omega)
  have hs := simParse ht (n := max n (E.cfg.sectionNames.length + 3)) (by omega) (by
    rintro rfl hd
    exact success_unreached hok hw hd)
  obtain ⟨h1, h2, _⟩ := hs w (by simp [hw])
  rw [hm, hok] at h1 h2
  cases hr : replay E root evs w.toCore with
  | mk o c =>
    rw [hr] at h1 h2
    cases o with
    | none => simp only at h2; rw [h2]
    | some e => cases h1

end CPE
