import Verif.Proofs.Keywords
/-
Lemmas on reading sections with the keyword parsers.
-/
namespace CPE.KW
open CPE CPE.Spec CPE.SetEnv CPE.KW.Spec

theorem filter_eq_nil_iff {α : Type} {p : α → Bool} {l : List α} : l.filter p = [] ↔ ∀ x ∈ l, p x = false := by
  rw [List.filter_eq_nil_iff]
  exact ⟨fun h x hx => by simpa using h x hx, fun h x hx => by simp [h x hx]⟩

section
variable {E : Env Unit Unit} {n : Nat} {s : Str} {o o1 : CObj} {d : Options}

/-- A section that was read once is only looked up afterwards. -/
theorem getItem_again (h : edGetItem E n s o = (.ok d, o1)) (m : Nat) : edGetItem E m s o1 = (.ok d, o1) := by
  change edOptions E n s o = _ at h
  change edOptions E m s o1 = _
  cases hf : E.cfg.hasSection s with
  | false =>
    rw [edOptions_missing hf] at h ⊢
    obtain ⟨h1, rfl⟩ := Prod.mk.inj h
    rw [h1]
  | true =>
    have hb : edHasSection E n s o = (if s ∉ o.checked then parseOwner E n s false >>= fun _ => hasSectionNoParse s
        else hasSectionNoParse s) o := by
      unfold edHasSection
      rw [if_pos hf, M.read_bind]
    by_cases hc : s ∈ o.checked
    · rw [edOptions_checked hc] at h
      obtain ⟨h1, rfl⟩ := Prod.mk.inj h
      rw [edOptions_checked hc, h1]
    · rw [if_pos hc] at hb
      have hm := parseOwner_marks E n s false o
      unfold edOptions at h
      cases hp : parseOwner E n s false o with
      | mk r o2 =>
        rw [hp] at hm
        cases r with
        | ok u =>
          rw [M.bind_ok hp] at hb
          have hb' : edHasSection E n s o = (.ok (Dict.mem o2.data s), o2) := hb
          rw [M.bind_ok hb', ifmem_edData _ rfl] at h
          obtain ⟨h1, rfl⟩ := Prod.mk.inj h
          rw [edOptions_checked hm, h1]
        | exc e =>
          rw [M.bind_exc hp] at hb
          rw [M.bind_exc hb] at h; cases h
        | diverge =>
          rw [M.bind_diverge hp] at hb
          rw [M.bind_diverge hb] at h; cases h

/-! ### get_values_for_section_key -/

theorem hasDuplicates_iff (l : List Str) : hasDuplicates l = false ↔ l.Nodup := by
  rw [hasDuplicates, List.any_eq_false, List.nodup_iff_count]
  constructor
  · intro h a
    by_cases ha : a ∈ l
    · have := h a ha; simp at this; omega
    · rw [List.count_eq_zero_of_not_mem ha]; omega
  · intro h a _
    have := h a
    simp; omega

theorem badValues_iff (l : List Str) : badValues l = [] ↔
    ∀ v ∈ l, ' ' ∈ v ∨ '_' ∈ v → v = py!"SELECT_ONE" ∨ v = py!"SELECT_MANY" := by
  rw [badValues, filter_eq_nil_iff]
  constructor
  · intro h v hv hc
    have := h v (List.mem_filter.2 ⟨hv, by simpa using hc⟩)
    rw [Decidable.or_iff_not_imp_left]
    simpa [selectWords] using this
  · intro h v hv
    obtain ⟨h1, h2⟩ := List.mem_filter.1 hv
    have := h v h1 (by simpa using h2)
    rw [Decidable.or_iff_not_imp_left] at this
    simpa [selectWords] using this

/-- What get_values_for_section_key makes of the data of a section. -/
def valuesResult (d : Options) (k : Str) : Out (List Str) :=
  if k ∉ Dict.keys d then .exc .keyError
  else if hasDuplicates (valuesIn d k) = true ∨ badValues (valuesIn d k) ≠ [] ∨
      ((valuesIn d k).filter fun v => (Dict.keys d).contains v) ≠ [] then .exc .systemExit
  else .ok (valuesIn d k)

theorem valuesResult_ok {k : Str} (hk : k ∈ Dict.keys d) (h : Acceptable d (valuesIn d k)) :
    valuesResult d k = .ok (valuesIn d k) := by
  rw [valuesResult, if_neg (by simpa using hk), if_neg]
  rintro (h1 | h1 | h1)
  · rw [(hasDuplicates_iff _).2 h.nodup] at h1; cases h1
  · exact h1 ((badValues_iff _).2 h.plain)
  · exact h1 (filter_eq_nil_iff.2 fun v hv => by simpa using h.notKey v hv)

theorem valuesResult_bad {k : Str} (hk : k ∈ Dict.keys d) (h : ¬ Acceptable d (valuesIn d k)) :
    valuesResult d k = .exc .systemExit := by
  rw [valuesResult, if_neg (by simpa using hk), if_pos]
  apply Classical.byContradiction
  intro hc
  simp only [not_or] at hc
  refine h ⟨(hasDuplicates_iff _).1 (by simpa using hc.1), (badValues_iff _).1 (Decidable.not_not.1 hc.2.1), ?_⟩
  intro v hv hm
  have := filter_eq_nil_iff.1 (Decidable.not_not.1 hc.2.2) v hv
  simp [hm] at this

theorem valuesResult_missing {k : Str} (hk : k ∉ Dict.keys d) : valuesResult d k = .exc .keyError := by
  rw [valuesResult, if_pos hk]

theorem getValues_read (h : edGetItem E n s o = (.ok d, o1)) (k : Str) :
    getValues E n s k o = (valuesResult d k, o1) := by
  have h2 := getItem_again h n
  have c1 : configGet E n s k o = (match Dict.get? d k with | some v => .ok v | none => .exc .keyError, o1) := by
    unfold configGet
    rw [M.bind_ok h]
    cases Dict.get? d k <;> rfl
  have c2 : configGet E n s k o1 = (match Dict.get? d k with | some v => .ok v | none => .exc .keyError, o1) := by
    unfold configGet
    rw [M.bind_ok h2]
    cases Dict.get? d k <;> rfl
  unfold getValues
  cases hg : Dict.get? d k with
  | none =>
    rw [hg] at c1
    rw [M.bind_exc c1, valuesResult_missing ((Dict.get?_eq_none_iff d k).1 hg)]
  | some v =>
    rw [hg] at c1 c2
    have hk : k ∈ Dict.keys d := (Dict.get?_isSome_iff d k).1 (by rw [hg]; rfl)
    rw [M.bind_ok c1]
    have ht : configText E n s k v o1 = (.ok (textOf v), o1) := by
      cases v with
      | none => rfl
      | some x =>
        rw [configText, M.bind_ok c2]; rfl
    rw [M.bind_ok ht]
    have hv : valuesIn d k = valuesOf (textOf v) := by rw [valuesIn, hg]; rfl
    rw [← hv, valuesResult, if_neg (c := ¬ k ∈ Dict.keys d) (by simpa using hk)]
    by_cases h3 : hasDuplicates (valuesIn d k) = true
    · rw [if_pos h3, if_pos (.inl h3)]; rfl
    · rw [if_neg h3]
      by_cases h4 : badValues (valuesIn d k) ≠ []
      · rw [if_pos h4, if_pos (.inr (.inl h4))]; rfl
      · rw [if_neg h4, M.bind_ok h2]
        by_cases h5 : ((valuesIn d k).filter fun v => (Dict.keys d).contains v) ≠ []
        · rw [if_pos h5, if_pos (.inr (.inr h5))]; rfl
        · rw [if_neg h5, if_neg (by simp only [not_or]; exact ⟨h3, h4, h5⟩)]; rfl

/-- What a failing read does. -/
theorem getValues_fail {r : Out Options} (hr : ∀ d, r ≠ .ok d) (h : edGetItem E n s o = (r, o1)) (k : Str) :
    getValues E n s k o = (match r with | .exc e => .exc e | _ => .diverge, o1) := by
  unfold getValues configGet
  cases r with
  | ok d => exact absurd rfl (hr d)
  | exc e => rw [M.bind_exc (M.bind_exc h)]
  | diverge => rw [M.bind_diverge (M.bind_diverge h)]

/-! ### get_key_for_section_value -/

theorem keyLoop_ok (h : edGetItem E n s o1 = (.ok d, o1)) (v : Str) (ks : List Str)
    (hk : ∀ k ∈ ks, k ∈ Dict.keys d ∧ Acceptable d (valuesIn d k)) (f : Option Str) :
    ∃ r, keyLoop E n s v ks f o1 = (.ok r, o1) ∧
      ((r = f ∧ ∀ k ∈ ks, v ∉ valuesIn d k) ∨
       ∃ pre k post, r = some k ∧ ks = pre ++ k :: post ∧ v ∈ valuesIn d k ∧ ∀ k' ∈ post, v ∉ valuesIn d k') := by
  induction ks generalizing f with
  | nil => exact ⟨f, rfl, .inl ⟨rfl, fun k hk => by cases hk⟩⟩
  | cons k ks ih =>
    have hk1 := hk k (.head _)
    obtain ⟨r, h1, h2⟩ := ih (fun k' hk' => hk k' (.tail _ hk')) (if (valuesIn d k).contains v then some k else f)
    refine ⟨r, ?_, ?_⟩
    · unfold keyLoop
      rw [M.bind_ok ((getValues_read h k).trans (by rw [valuesResult_ok hk1.1 hk1.2]))]
      exact h1
    · rcases h2 with ⟨h3, h4⟩ | ⟨pre, k', post, h3, h4, h5, h6⟩
      · by_cases hv : v ∈ valuesIn d k
        · rw [if_pos (by simpa using hv)] at h3
          exact .inr ⟨[], k, ks, h3, rfl, hv, h4⟩
        · rw [if_neg (by simpa using hv)] at h3
          refine .inl ⟨h3, fun k' hk' => ?_⟩
          rcases List.mem_cons.1 hk' with rfl | hk'
          · exact hv
          · exact h4 k' hk'
      · exact .inr ⟨k :: pre, k', post, h3, by rw [h4]; rfl, h5, h6⟩

theorem keyLoop_bad (h : edGetItem E n s o1 = (.ok d, o1)) (v : Str) (ks : List Str)
    (hk : ∀ k ∈ ks, k ∈ Dict.keys d) (hb : ∃ k ∈ ks, ¬ Acceptable d (valuesIn d k)) (f : Option Str) :
    keyLoop E n s v ks f o1 = (.exc .systemExit, o1) := by
  induction ks generalizing f with
  | nil => obtain ⟨k, hk, _⟩ := hb; cases hk
  | cons k ks ih =>
    unfold keyLoop
    by_cases ha : Acceptable d (valuesIn d k)
    · rw [M.bind_ok ((getValues_read h k).trans (by rw [valuesResult_ok (hk k (.head _)) ha]))]
      refine ih (fun k' hk' => hk k' (.tail _ hk')) ?_ _
      obtain ⟨k', hk', hn⟩ := hb
      rcases List.mem_cons.1 hk' with rfl | hk'
      · exact absurd ha hn
      · exact ⟨k', hk', hn⟩
    · rw [M.bind_exc ((getValues_read h k).trans (by rw [valuesResult_bad (hk k (.head _)) ha]))]

theorem lastKeyWith_unique {v k k' : Str} (h : LastKeyWith d v k) (h' : LastKeyWith d v k') : k = k' := by
  obtain ⟨pre, post, e, h1, h2⟩ := h
  obtain ⟨pre', post', e', h1', h2'⟩ := h'
  rw [e] at e'
  rcases List.append_eq_append_iff.1 e' with ⟨a, ha, hb⟩ | ⟨a, ha, hb⟩
  · cases a with
    | nil => simp at hb; exact hb.1
    | cons x a => simp at hb; exact absurd h1' (h2 _ (by rw [hb.2]; simp))
  · cases a with
    | nil => simp at hb; exact hb.1.symm
    | cons x a => simp at hb; exact absurd h1 (h2' _ (by rw [hb.2]; simp))

theorem getKey_ok (h : edGetItem E n s o = (.ok d, o1)) (ha : AllAcceptable d) (v : Str) :
    (∃ k, LastKeyWith d v k ∧ getKey E n s v o = (.ok k, o1)) ∨
    ((∀ k ∈ Dict.keys d, v ∉ valuesIn d k) ∧ getKey E n s v o = (.exc .systemExit, o1)) := by
  obtain ⟨r, h1, h2⟩ := keyLoop_ok (getItem_again h n) v (Dict.keys d) (fun k hk => ⟨hk, ha k hk⟩) none
  have e : getKey E n s v o = (match r with | none => .exc .systemExit | some k => .ok k, o1) := by
    unfold getKey
    rw [M.bind_ok h, M.bind_ok h1]
    cases r <;> rfl
  rcases h2 with ⟨rfl, h2⟩ | ⟨pre, k, post, rfl, h3, h4, h5⟩
  · exact .inr ⟨h2, e⟩
  · exact .inl ⟨k, ⟨pre, post, h3, h4, h5⟩, e⟩

theorem getKey_bad (h : edGetItem E n s o = (.ok d, o1)) (ha : ¬ AllAcceptable d) (v : Str) :
    getKey E n s v o = (.exc .systemExit, o1) := by
  unfold getKey
  have hb : ∃ k ∈ Dict.keys d, ¬ Acceptable d (valuesIn d k) := by
    apply Classical.byContradiction
    intro hc
    exact ha fun k hk => Classical.byContradiction fun hn => hc ⟨k, hk, hn⟩
  rw [M.bind_ok h, M.bind_exc (keyLoop_bad (getItem_again h n) v _ (fun _ h => h) hb none)]

/-! ### get_aliases -/

theorem aliasLoop_ok (h : edGetItem E n s o1 = (.ok d, o1)) (ks : List Str)
    (hk : ∀ k ∈ ks, k ∈ Dict.keys d ∧ Acceptable d (valuesIn d k)) :
    aliasLoop E n s ks o1 = (.ok (ks.flatMap (valuesIn d)), o1) := by
  induction ks with
  | nil => rfl
  | cons k ks ih =>
    have hk1 := hk k (.head _)
    unfold aliasLoop
    rw [M.bind_ok ((getValues_read h k).trans (by rw [valuesResult_ok hk1.1 hk1.2])),
      M.bind_ok (ih fun k' hk' => hk k' (.tail _ hk'))]
    rfl

theorem aliasLoop_bad (h : edGetItem E n s o1 = (.ok d, o1)) (ks : List Str)
    (hk : ∀ k ∈ ks, k ∈ Dict.keys d) (hb : ∃ k ∈ ks, ¬ Acceptable d (valuesIn d k)) :
    aliasLoop E n s ks o1 = (.exc .systemExit, o1) := by
  induction ks with
  | nil => obtain ⟨k, hk, _⟩ := hb; cases hk
  | cons k ks ih =>
    unfold aliasLoop
    by_cases ha : Acceptable d (valuesIn d k)
    · rw [M.bind_ok ((getValues_read h k).trans (by rw [valuesResult_ok (hk k (.head _)) ha]))]
      rw [M.bind_exc (ih (fun k' hk' => hk k' (.tail _ hk')) ?_)]
      obtain ⟨k', hk', hn⟩ := hb
      rcases List.mem_cons.1 hk' with rfl | hk'
      · exact absurd ha hn
      · exact ⟨k', hk', hn⟩
    · rw [M.bind_exc ((getValues_read h k).trans (by rw [valuesResult_bad (hk k (.head _)) ha]))]

theorem getAliases_ok (h : edGetItem E n s o = (.ok d, o1)) (ha : AllAcceptable d) (hn : (allValues d).Nodup) :
    getAliases E n s o = (.ok (allValues d), o1) := by
  unfold getAliases
  rw [M.bind_ok h, M.bind_ok (aliasLoop_ok (getItem_again h n) _ fun k hk => ⟨hk, ha k hk⟩)]
  have : hasDuplicates ((Dict.keys d).flatMap (valuesIn d)) = false := (hasDuplicates_iff _).2 hn
  rw [this]; rfl

theorem getAliases_bad (h : edGetItem E n s o = (.ok d, o1)) (hb : ¬ (AllAcceptable d ∧ (allValues d).Nodup)) :
    getAliases E n s o = (.exc .systemExit, o1) := by
  unfold getAliases
  rw [M.bind_ok h]
  by_cases ha : AllAcceptable d
  · rw [M.bind_ok (aliasLoop_ok (getItem_again h n) _ fun k hk => ⟨hk, ha k hk⟩)]
    have : hasDuplicates ((Dict.keys d).flatMap (valuesIn d)) = true := by
      cases hd : hasDuplicates ((Dict.keys d).flatMap (valuesIn d)) with
      | true => rfl
      | false => exact absurd ⟨ha, (hasDuplicates_iff _).1 hd⟩ hb
    rw [this]; rfl
  · have hb : ∃ k ∈ Dict.keys d, ¬ Acceptable d (valuesIn d k) := by
      apply Classical.byContradiction
      intro hc
      exact ha fun k hk => Classical.byContradiction fun hn => hc ⟨k, hk, hn⟩
    rw [M.bind_exc (aliasLoop_bad (getItem_again h n) _ (fun _ h => h) hb)]

/-! ### Sorting by length -/

/-- The first element with a property. -/
def firstWith (p : Str → Bool) : List Str → Option Str
  | [] => none
  | x :: xs => if p x = true then some x else firstWith p xs

/-- Sorted by decreasing length. -/
def Descending : List Str → Prop
  | [] => True
  | x :: xs => (∀ y ∈ xs, y.length ≤ x.length) ∧ Descending xs

theorem mem_insertByLen {x y : Str} {l : List Str} : y ∈ insertByLen x l ↔ y = x ∨ y ∈ l := by
  induction l with
  | nil => simp [insertByLen]
  | cons a l ih =>
    rw [insertByLen]
    split
    · simp
    · simp only [List.mem_cons, ih]
      exact ⟨fun h => by rcases h with h | h | h <;> simp [h], fun h => by rcases h with h | h | h <;> simp [h]⟩

theorem mem_sortByLen {y : Str} {l : List Str} : y ∈ sortByLen l ↔ y ∈ l := by
  induction l with
  | nil => simp [sortByLen]
  | cons a l ih => rw [sortByLen, mem_insertByLen, ih, List.mem_cons]

theorem descending_insert {x : Str} {l : List Str} (h : Descending l) : Descending (insertByLen x l) := by
  induction l with
  | nil => exact ⟨(fun y hy => by cases hy), trivial⟩
  | cons a l ih =>
    rw [insertByLen]
    split
    · rename_i hl
      refine ⟨fun y hy => ?_, h⟩
      rcases List.mem_cons.1 hy with rfl | hy
      · exact hl
      · exact Nat.le_trans (h.1 y hy) hl
    · rename_i hl
      refine ⟨fun y hy => ?_, ih h.2⟩
      rcases mem_insertByLen.1 hy with rfl | hy
      · omega
      · exact h.1 y hy

theorem descending_sort (l : List Str) : Descending (sortByLen l) := by
  induction l with
  | nil => trivial
  | cons a l ih => exact descending_insert ih

theorem firstWith_none {p : Str → Bool} {l : List Str} : firstWith p l = none ↔ ∀ x ∈ l, p x = false := by
  induction l with
  | nil => simp [firstWith]
  | cons a l ih =>
    rw [firstWith]
    cases h : p a <;> simp [ih, h]

theorem firstWith_some {p : Str → Bool} {l : List Str} {x : Str} (h : firstWith p l = some x) : x ∈ l ∧ p x = true := by
  induction l with
  | nil => cases h
  | cons a l ih =>
    rw [firstWith] at h
    split at h
    · cases h; exact ⟨.head _, ‹_›⟩
    · obtain ⟨h1, h2⟩ := ih h; exact ⟨.tail _ h1, h2⟩

/-- Inserting `x` in front: it is found first when nothing longer is found. -/
theorem firstWith_insert {p : Str → Bool} {x : Str} {l : List Str} (hd : Descending l) :
    firstWith p (insertByLen x l) =
      if p x = true then (match firstWith p l with
        | some y => if x.length < y.length then some y else some x
        | none => some x)
      else firstWith p l := by
  induction l with
  | nil => simp [insertByLen, firstWith]
  | cons a l ih =>
    rw [insertByLen]
    split
    · rename_i hl
      rw [firstWith]
      by_cases hx : p x = true
      · rw [if_pos hx, if_pos hx]
        cases hf : firstWith p (a :: l) with
        | none => rfl
        | some y =>
          have : y.length ≤ a.length := by
            rcases List.mem_cons.1 (firstWith_some hf).1 with rfl | h
            · exact Nat.le_refl _
            · exact hd.1 y h
          simp only
          rw [if_neg (by omega)]
      · rw [if_neg hx, if_neg hx]
    · rename_i hl
      rw [firstWith, firstWith]
      by_cases ha : p a = true
      · rw [if_pos ha, if_pos ha]
        split
        · dsimp only; rw [if_pos (by omega)]
        · rfl
      · rw [if_neg ha, if_neg ha]
        exact ih hd.2

theorem best_of_firstWith {p : Str → Bool} {l : List Str} {x : Str} (h : firstWith p (sortByLen l) = some x) :
    Best (fun y => p y = true) l x := by
  induction l generalizing x with
  | nil => cases h
  | cons a l ih =>
    rw [sortByLen, firstWith_insert (descending_sort l)] at h
    by_cases ha : p a = true
    · rw [if_pos ha] at h
      cases hf : firstWith p (sortByLen l) with
      | none =>
        rw [hf] at h; cases h
        refine ⟨[], l, rfl, ha, (fun y hy => by cases hy), fun y hy hp => ?_⟩
        have := firstWith_none.1 hf y (mem_sortByLen.2 hy)
        exact absurd hp (by simp [this])
      | some y =>
        obtain ⟨pre, post, e, h1, h2, h3⟩ := ih hf
        rw [hf] at h
        dsimp only at h
        split at h
        · rename_i hl
          cases h
          refine ⟨a :: pre, post, by rw [e]; rfl, h1, fun z hz hp => ?_, h3⟩
          rcases List.mem_cons.1 hz with rfl | hz
          · exact hl
          · exact h2 z hz hp
        · rename_i hl
          cases h
          refine ⟨[], l, rfl, ha, (fun y hy => by cases hy), fun z hz hp => ?_⟩
          rw [e] at hz
          rcases List.mem_append.1 hz with hz | hz
          · have := h2 z hz hp; omega
          · rcases List.mem_cons.1 hz with rfl | hz
            · omega
            · have := h3 z hz hp; omega
    · rw [if_neg ha] at h
      obtain ⟨pre, post, e, h1, h2, h3⟩ := ih h
      refine ⟨a :: pre, post, by rw [e]; rfl, h1, fun z hz hp => ?_, h3⟩
      rcases List.mem_cons.1 hz with rfl | hz
      · exact absurd hp ha
      · exact h2 z hz hp

/-- The best element is determined. -/
theorem best_unique {p : Str → Prop} {l : List Str} {x y : Str} (h : Best p l x) (h' : Best p l y) : x = y := by
  obtain ⟨pre, post, e, h1, h2, h3⟩ := h
  obtain ⟨pre', post', e', h1', h2', h3'⟩ := h'
  rw [e] at e'
  rcases List.append_eq_append_iff.1 e' with ⟨a, ha, hb⟩ | ⟨a, ha, hb⟩
  · cases a with
    | nil => simp at hb; exact hb.1
    | cons z a =>
      simp at hb
      have := h2' x (by rw [ha]; simp [hb.1]) h1
      have := h3 y (by rw [hb.2]; simp) h1'
      omega
  · cases a with
    | nil => simp at hb; exact hb.1.symm
    | cons z a =>
      simp at hb
      have := h2 y (by rw [ha]; simp [hb.1]) h1'
      have := h3' x (by rw [hb.2]; simp) h1
      omega

/-! ### Names in a build name -/

theorem matchPrefix_iff {p t r : Str} : matchPrefix p t = some r ↔ ∃ x, t = x ++ r ∧ Fits p x := by
  induction p generalizing t with
  | nil =>
    rw [matchPrefix]
    constructor
    · intro h; cases h; exact ⟨[], rfl, .nil⟩
    · rintro ⟨x, rfl, h⟩; cases h; rfl
  | cons c p ih =>
    cases t with
    | nil =>
      rw [matchPrefix]
      constructor
      · intro h; cases h
      · rintro ⟨x, h1, h2⟩; cases h2 <;> simp at h1
    | cons a t =>
      rw [matchPrefix]
      split
      · rename_i hc
        rw [ih]
        constructor
        · rintro ⟨x, rfl, hs⟩
          refine ⟨a :: x, rfl, ?_⟩
          rcases hc with rfl | ⟨rfl, h⟩
          · exact .eq hs
          · exact .dot h hs
        · rintro ⟨x, h1, h2⟩
          cases h2 with
          | eq h => simp at h1; exact ⟨_, h1.2, h⟩
          | dot _ h => simp at h1; exact ⟨_, h1.2, h⟩
      · rename_i hc
        constructor
        · intro h; cases h
        · rintro ⟨x, h1, h2⟩
          exfalso; apply hc
          cases h2 with
          | eq h => simp at h1; exact .inl h1.1.symm
          | dot hn h => simp at h1; exact .inr ⟨rfl, by rw [h1.1]; exact hn⟩

theorem endsName_iff (r : Str) : endsName r = true ↔ r = [] ∨ r = ['\n'] ∨ ∃ q, r = '_' :: q := by
  cases r with
  | nil => simp [endsName]
  | cons c r =>
    simp only [endsName, List.head?_cons, Bool.or_eq_true, beq_iff_eq, Option.some.injEq, reduceCtorEq, false_or, List.cons.injEq]
    constructor
    · rintro (h | h)
      · exact .inl h
      · exact .inr ⟨r, h, rfl⟩
    · rintro (h | ⟨q, h, _⟩)
      · exact .inl h
      · exact .inr h

theorem matchName_iff {name t : Str} : matchName name t = true ↔ ∃ x r, t = x ++ r ∧ Fits name x ∧ (r = [] ∨ r = ['\n'] ∨ ∃ q, r = '_' :: q) := by
  rw [matchName]
  constructor
  · intro h
    split at h
    · rename_i r hr
      obtain ⟨x, h1, h2⟩ := matchPrefix_iff.1 hr
      exact ⟨x, r, h1, h2, (endsName_iff r).1 h⟩
    · cases h
  · rintro ⟨x, r, h1, h2, h3⟩
    rw [matchPrefix_iff.2 ⟨x, h1, h2⟩]
    exact (endsName_iff r).2 h3

theorem matchAfterDelim_iff {name t : Str} : matchAfterDelim name t = true ↔ ∃ p u, t = p ++ '_' :: u ∧ matchName name u = true := by
  induction t with
  | nil => simp [matchAfterDelim]
  | cons c t ih =>
    rw [matchAfterDelim, Bool.or_eq_true, Bool.and_eq_true, ih]
    constructor
    · rintro (⟨h1, h2⟩ | ⟨p, u, rfl, h⟩)
      · refine ⟨[], t, ?_, h2⟩
        simp at h1; rw [h1]; rfl
      · exact ⟨c :: p, u, rfl, h⟩
    · rintro ⟨p, u, h1, h2⟩
      cases p with
      | nil => simp at h1; refine .inl ⟨by simp [h1.1], ?_⟩; rw [h1.2]; exact h2
      | cons a p => simp at h1; exact .inr ⟨p, u, h1.2, h2⟩

theorem occurs_iff {name build : Str} : (matchName name build || matchAfterDelim name build) = true ↔ Occurs name build := by
  rw [Bool.or_eq_true, matchAfterDelim_iff, matchName_iff]
  constructor
  · rintro (⟨x, r, h1, h2, h3⟩ | ⟨p, u, h1, h2⟩)
    · exact ⟨[], x, r, h1, h2, .inl rfl, h3⟩
    · obtain ⟨x, r, rfl, h4, h5⟩ := matchName_iff.1 h2
      exact ⟨p ++ ['_'], x, r, by rw [h1]; simp, h4, .inr ⟨p, rfl⟩, h5⟩
  · rintro ⟨pre, x, post, h1, h2, h3, h4⟩
    rcases h3 with rfl | ⟨p, rfl⟩
    · exact .inl ⟨x, post, h1, h2, h4⟩
    · exact .inr ⟨p, x ++ post, by rw [h1]; simp, matchName_iff.2 ⟨x, post, rfl, h2, h4⟩⟩

theorem firstMatch_simple {H : Host} {build : Str} {l : List Str} (hs : ∀ x ∈ l, simplePattern x = true) :
    firstMatch H build l = .ok (firstWith (fun x => matchName x build || matchAfterDelim x build) l) := by
  induction l with
  | nil => rfl
  | cons a l ih =>
    rw [firstMatch, nameSearch, if_pos (hs a (.head _)), firstWith, ih fun x hx => hs x (.tail _ hx)]
    cases (matchName a build || matchAfterDelim a build) <;> rfl

theorem best_congr {p q : Str → Prop} (h : ∀ x, p x ↔ q x) {l : List Str} {x : Str} : Best p l x ↔ Best q l x := by
  simp only [Best, h]

end
end CPE.KW
