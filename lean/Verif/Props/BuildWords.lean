import Verif.Props.ConfigKeywords
import Verif.Props.DetermineSystem
/-
C87: the order of the words in a build name, their repetition, and words that are no option are of no account.
-/
namespace CPE.Props
open CPE CPE.Spec CPE.SetEnv CPE.KW CPE.KW.Spec

section
variable {E : Env Unit Unit} {n : Nat} {d : Options}

theorem typeRes_options {f : Str} {p : List Str × Str} (h : typeRes d f = .ok p) : p.1 = (valuesIn d f).tail := by
  rw [typeRes] at h
  cases hv : valuesResult d f with
  | exc e => rw [hv] at h; cases h
  | diverge => rw [hv] at h; cases h
  | ok vs =>
    have e : vs = valuesIn d f := by
      rw [valuesResult] at hv
      split at hv
      · cases hv
      · split at hv
        · cases hv
        · cases hv; rfl
    rw [hv, e] at h
    cases hw : valuesIn d f with
    | nil => rw [hw] at h; cases h
    | cons t opts =>
      rw [hw] at h
      change (if t ∉ selectWords then _ else _) = _ at h
      split at h
      · cases h
      · cases h; rfl

theorem selectFor_words {opts w w' : List Str} (t : Str) (h : ∀ o ∈ opts, (o ∈ w ↔ o ∈ w')) :
    selectFor opts t w = selectFor opts t w' := by
  have e : (opts.filter fun o => w.contains o) = opts.filter fun o => w'.contains o := by
    refine List.filter_congr fun o ho => ?_
    rw [Bool.eq_iff_iff, List.contains_iff_mem, List.contains_iff_mem]
    exact h o ho
  unfold selectFor; rw [e]

theorem selectRes_words {w w' : List Str} (fs : List Str)
    (h : ∀ f ∈ fs, ∀ o ∈ (valuesIn d f).tail, (o ∈ w ↔ o ∈ w')) : selectRes d w fs = selectRes d w' fs := by
  induction fs with
  | nil => rfl
  | cons f fs ih =>
    rw [selectRes, selectRes, ih fun g hg => h g (.tail _ hg)]
    cases ht : typeRes d f with
    | exc e => rfl
    | diverge => rfl
    | ok p =>
      show andThen (selectFor p.1 p.2 w) _ = andThen (selectFor p.1 p.2 w') _
      rw [selectFor_words p.2 fun o ho => h f (.head _) o (by rw [← typeRes_options ht]; exact ho)]

/-- C87: two build names that mention the same options among their words get the same, results and failures alike.
(The options of a flag are its values after the first one. No assumption is made on whether the section is correct.) -/
theorem C87_words {b b' : Str} {k k' : CKP} (h : CKP.new E n b = .ok k) (h' : CKP.new E n b' = .ok k') {o1 : CObj}
    (hr : edGetItem E n flagSection (Obj.fresh E ()) = (.ok d, o1))
    (hw : ∀ f ∈ Dict.keys d, ∀ o ∈ (valuesIn d f).tail, (o ∈ splitChar '_' b ↔ o ∈ splitChar '_' b')) :
    (CKP.selectedOptions E n k).1 = (CKP.selectedOptions E n k').1 ∧
    (CKP.selectedOptionsStr E n k).1 = (CKP.selectedOptionsStr E n k').1 := by
  obtain ⟨h1, h2, _⟩ := ckp_answers h hr
  obtain ⟨h1', h2', _⟩ := ckp_answers h' hr
  have e : selectionRes d b = selectionRes d b' := by rw [selectionRes, selectRes_words _ hw, selectionRes]
  exact ⟨by rw [h1, h1', e], by rw [h2, h2', e]⟩

/-- C87: the words of a build name may be put in another order, and repeated. -/
theorem C87_order {ws ws' : List Str} (hne : ws ≠ []) (hne' : ws' ≠ []) (hs : ∀ w, w ∈ ws ↔ w ∈ ws')
    (hu : ∀ w ∈ ws, '_' ∉ w) {k k' : CKP} (h : CKP.new E n (joinStr ['_'] ws) = .ok k)
    (h' : CKP.new E n (joinStr ['_'] ws') = .ok k') :
    (CKP.selectedOptions E n k).1 = (CKP.selectedOptions E n k').1 ∧
    (CKP.selectedOptionsStr E n k).1 = (CKP.selectedOptionsStr E n k').1 := by
  obtain ⟨d, o1, hr, _⟩ := ckpNew_ok h
  refine C87_words h h' hr fun f _ o _ => ?_
  rw [splitChar_joinStr hne hu, splitChar_joinStr hne' fun w hw => hu w ((hs w).2 hw)]
  exact hs o

/-- C87: words that are options of no flag may be added, in front or behind. -/
theorem C87_extra {b x : Str} {o1 : CObj} (hr : edGetItem E n flagSection (Obj.fresh E ()) = (.ok d, o1))
    (hx : ∀ f ∈ Dict.keys d, ∀ o ∈ (valuesIn d f).tail, o ∉ splitChar '_' x) {k kf kb : CKP}
    (h : CKP.new E n b = .ok k) (hf : CKP.new E n (x ++ '_' :: b) = .ok kf) (hb : CKP.new E n (b ++ '_' :: x) = .ok kb) :
    (CKP.selectedOptions E n kf).1 = (CKP.selectedOptions E n k).1 ∧
    (CKP.selectedOptions E n kb).1 = (CKP.selectedOptions E n k).1 ∧
    (CKP.selectedOptionsStr E n kf).1 = (CKP.selectedOptionsStr E n k).1 ∧
    (CKP.selectedOptionsStr E n kb).1 = (CKP.selectedOptionsStr E n k).1 := by
  have e1 := C87_words hf h hr fun f hf o ho => by
    rw [splitChar_sep, List.mem_append]
    exact ⟨fun h => h.resolve_left (hx f hf o ho), .inr⟩
  have e2 := C87_words hb h hr fun f hf o ho => by
    rw [splitChar_sep, List.mem_append]
    exact ⟨fun h => h.resolve_right (hx f hf o ho), .inl⟩
  exact ⟨e1.1, e2.1, e1.2, e2.2⟩

/-- Another order, repeated words and foreign words: the same selection, which is not the default; and a clash stays
a clash. -/
example : selectionFor py!"teko_no-mpi_belos" = .ok [(py!"use-mpi", .one py!"no-mpi"), (py!"packages", .many [py!"belos", py!"teko"])] ∧
    selectionFor py!"belos_teko_no-mpi_belos" = selectionFor py!"teko_no-mpi_belos" ∧
    selectionFor py!"gcc_teko_no-mpi_belos" = selectionFor py!"teko_no-mpi_belos" ∧
    selectionFor py!"mpi_no-mpi" = .exc .valueError ∧ selectionFor py!"no-mpi_mpi" = .exc .valueError := by decide +kernel

/-- The hypotheses of the three theorems are met. -/
example : (∀ w, w ∈ [py!"teko", py!"no-mpi", py!"belos"] ↔ w ∈ [py!"belos", py!"teko", py!"no-mpi", py!"belos"]) ∧
    (∀ w ∈ [py!"teko", py!"no-mpi", py!"belos"], '_' ∉ w) ∧
    (∃ k, CKP.new (cls flagsCfg) 10 (joinStr ['_'] [py!"teko", py!"no-mpi", py!"belos"]) = .ok k) ∧
    (∃ d o1, edGetItem (cls flagsCfg) 10 flagSection (Obj.fresh (cls flagsCfg) ()) = (.ok d, o1) ∧
      ∀ f ∈ Dict.keys d, ∀ o ∈ (valuesIn d f).tail, o ∉ splitChar '_' py!"gcc") := by
  refine ⟨fun w => ?_, by decide +kernel, ⟨_, rfl⟩, ⟨_, _, rfl, by decide +kernel⟩⟩
  simp only [List.mem_cons, List.not_mem_nil, or_false]
  constructor
  · rintro (h | h | h) <;> simp [h]
  · rintro (h | h | h | h) <;> simp [h]

/-- C87: two build names that name the same systems get the same system, or fail alike, forced or not. -/
theorem C87_system {H : Host} {b b' : Str} (force : Bool) (hw : ∀ s, NamedIn E H b s ↔ NamedIn E H b' s) :
    (DS.systemName E n H (DS.new E b force)).1 = (DS.systemName E n H (DS.new E b' force)).1 := by
  have e : sysFromBuild E H b = sysFromBuild E H b' := by
    have ef : ((sysNames E).filter fun s => (splitChar '_' (H.lower b)).contains s) =
        (sysNames E).filter fun s => (splitChar '_' (H.lower b')).contains s := by
      refine List.filter_congr fun s hs => ?_
      have hsys : Systems E s := by
        rw [sysNames, List.mem_filter] at hs
        simpa [Systems, edKeys] using hs
      rw [Bool.eq_iff_iff, List.contains_iff_mem, List.contains_iff_mem]
      exact ⟨fun h => ((hw s).1 ⟨hsys, h⟩).2, fun h => ((hw s).2 ⟨hsys, h⟩).2⟩
    unfold sysFromBuild
    dsimp only
    rw [ef]
  unfold DS.systemName
  simp only [show ∀ x, (DS.new E x force).name = none from fun _ => rfl,
    show ∀ x, (DS.new E x force).obj = Obj.fresh E () from fun _ => rfl,
    show ∀ x, (DS.new E x force).force = force from fun _ => rfl,
    show ∀ x, (DS.new E x force).buildName = x from fun _ => rfl, e]
  split
  · rfl
  · rfl
  · cases sysFromBuild E H b' with
    | exc e => rfl
    | diverge => rfl
    | ok r =>
      cases r with
      | none => dsimp only; split <;> rfl
      | some s => dsimp only; split <;> rfl

/-- Another order and another word: the same system, which is not the one of a build name without it. -/
example : systemFor py!"machine-2_gnu" true = .ok (some py!"machine-2") ∧ systemFor py!"gnu_debug_machine-2" true = .ok (some py!"machine-2") ∧
    systemFor py!"gnu" true = .ok (some py!"machine-1") := by decide +kernel

/-- The hypothesis is met. -/
example : ∀ s, NamedIn (cls systemsCfg) host1 py!"machine-2_gnu" s ↔ NamedIn (cls systemsCfg) host1 py!"gnu_debug_machine-2" s := by
  have key : ∀ s ∈ [py!"machine-1", py!"machine-2"], (s ∈ splitChar '_' (host1.lower py!"machine-2_gnu") ↔
      s ∈ splitChar '_' (host1.lower py!"gnu_debug_machine-2")) := by decide +kernel
  exact fun s => ⟨fun h => ⟨h.1, (key s h.1.1).1 h.2⟩, fun h => ⟨h.1, (key s h.1.1).2 h.2⟩⟩

end
end CPE.Props
