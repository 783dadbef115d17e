import Verif.Proofs.Fuel
import Verif.Spec.Resolve
/-
What a replay does to each part of the state.
-/
namespace CPE
open Spec
variable {δ ω : Type}

/-! ### event lists -/

theorem stores_append (a b : List (Ev δ ω)) : stores (a ++ b) = stores a ++ stores b := by
  induction a with
  | nil => rfl
  | cons e a ih => cases e <;> simp [stores, ih]

theorem visits_append (a b : List (Ev δ ω)) : visits (a ++ b) = visits a ++ visits b := by
  induction a with
  | nil => rfl
  | cons e a ih => cases e <;> simp [visits, ih]

theorem calls_append (a b : List (Ev δ ω)) : calls (a ++ b) = calls a ++ calls b := by
  induction a with
  | nil => rfl
  | cons e a ih => cases e <;> simp [calls, ih]

theorem cycles_append (a b : List (Ev δ ω)) : cycles (a ++ b) = cycles a ++ cycles b := by
  induction a with
  | nil => rfl
  | cons e a ih => cases e <;> simp [cycles, ih]

theorem mem_stores {evs : List (Ev δ ω)} {k : Str} {v : Option Str} : (k, v) ∈ stores evs ↔ .store k v ∈ evs := by
  induction evs with
  | nil => simp [stores]
  | cons e evs ih => cases e <;> simp [stores, ih]

theorem mem_visits {evs : List (Ev δ ω)} {s : Str} : s ∈ visits evs ↔ .visit s ∈ evs := by
  induction evs with
  | nil => simp [visits]
  | cons e evs ih => cases e <;> simp [visits, ih]

theorem mem_calls {evs : List (Ev δ ω)} {h : Handler δ ω} {c : HCall} : (h, c) ∈ calls evs ↔ .call h c ∈ evs := by
  induction evs with
  | nil => simp [calls]
  | cons e evs ih => cases e <;> simp [calls, ih]

theorem mem_cycles {evs : List (Ev δ ω)} {s t : Str} : (s, t) ∈ cycles evs ↔ .cycle s t ∈ evs := by
  induction evs with
  | nil => simp [cycles]
  | cons e evs ih => cases e <;> simp [cycles, ih]

/-! ### last-wins merge -/

/-- Writing in order. -/
def writeAll (d : Options) (ws : List (Str × Option Str)) : Options :=
  ws.foldl (fun d w => Dict.set d w.1 w.2) d

theorem writeAll_append (d : Options) (a b : List (Str × Option Str)) :
    writeAll d (a ++ b) = writeAll (writeAll d a) b := by simp [writeAll]

theorem get?_writeAll (d : Options) (ws : List (Str × Option Str)) (k : Str) :
    Dict.get? (writeAll d ws) k = match lastWrite ws k with
      | some v => some v
      | none => Dict.get? d k := by
  induction ws generalizing d with
  | nil => rfl
  | cons w ws ih =>
    obtain ⟨k', v⟩ := w
    simp only [writeAll, List.foldl_cons] at ih ⊢
    rw [ih]
    simp only [lastWrite]
    cases lastWrite ws k with
    | some v' => rfl
    | none =>
      simp only
      rw [Dict.get?_set]
      by_cases h : k' = k
      · simp [h]
      · have : ¬ k = k' := fun e => h e.symm
        simp [h, this]

theorem filter_comm' {α : Type} (p q : α → Bool) (l : List α) : (l.filter p).filter q = (l.filter q).filter p := by
  simp only [List.filter_filter, Bool.and_comm]

theorem keys_writeAll (d : Options) (ws : List (Str × Option Str)) :
    Dict.keys (writeAll d ws) =
      Dict.keys d ++ (firstOccurrences (ws.map Prod.fst)).filter fun x => decide (x ∉ Dict.keys d) := by
  induction ws generalizing d with
  | nil => simp [writeAll, firstOccurrences]
  | cons w ws ih =>
    obtain ⟨k, v⟩ := w
    have : writeAll d ((k, v) :: ws) = writeAll (Dict.set d k v) ws := rfl
    rw [this, ih, Dict.keys_set]
    simp only [List.map_cons, firstOccurrences, List.filter_cons]
    by_cases hk : k ∈ Dict.keys d
    · simp only [hk, if_true, not_true, decide_false, Bool.false_eq_true, if_false, List.filter_filter]
      congr 1
      apply List.filter_congr
      intro x _
      by_cases hx : x = k
      · subst hx; simp [hk]
      · simp [hx]
    · simp only [hk, if_false, not_false_eq_true, decide_true, if_true, List.append_assoc, List.filter_filter]
      congr 1
      simp only [List.cons_append, List.nil_append]
      congr 1
      apply List.filter_congr
      intro x _
      by_cases hx : x = k
      · subst hx; simp
      · simp [hx]

theorem lastWins_writeAll (ws : List (Str × Option Str)) : LastWins ws (writeAll [] ws) := by
  refine ⟨?_, fun k => ?_⟩
  · rw [keys_writeAll]
    simp [Dict.keys]
  · rw [get?_writeAll]
    cases lastWrite ws k <;> rfl

theorem dict_ext {ν : Type} (d d' : Dict Str ν) (hn : (Dict.keys d).Nodup) (hk : Dict.keys d = Dict.keys d')
    (hg : ∀ k, Dict.get? d k = Dict.get? d' k) : d = d' := by
  induction d generalizing d' with
  | nil => cases d' with
    | nil => rfl
    | cons a d' => simp [Dict.keys] at hk
  | cons a d ih =>
    cases d' with
    | nil => simp [Dict.keys] at hk
    | cons b d' =>
      obtain ⟨k, v⟩ := a
      obtain ⟨k', v'⟩ := b
      simp only [Dict.keys, List.map_cons, List.cons.injEq] at hk hn
      obtain ⟨rfl, hk⟩ := hk
      have h1 := hg k
      simp only [Dict.get?, if_true, Option.some.injEq] at h1
      subst h1
      congr 1
      rw [List.nodup_cons] at hn
      apply ih d' hn.2 hk
      intro x
      have h2 := hg x
      simp only [Dict.get?] at h2
      by_cases hx : k = x
      · subst hx
        have e1 : Dict.get? d k = none := (Dict.get?_eq_none_iff d k).mpr hn.1
        have e2 : Dict.get? d' k = none := (Dict.get?_eq_none_iff d' k).mpr (by
          have : k ∉ List.map Prod.fst d' := hk ▸ hn.1
          exact this)
        rw [e1, e2]
      · simpa [hx] using h2

theorem nodup_firstOccurrences (l : List Str) : (firstOccurrences l).Nodup := by
  induction l with
  | nil => simp [firstOccurrences]
  | cons a l ih =>
    simp only [firstOccurrences, List.nodup_cons]
    exact ⟨by simp, ih.filter _⟩

theorem mem_firstOccurrences (l : List Str) (x : Str) : x ∈ firstOccurrences l ↔ x ∈ l := by
  induction l with
  | nil => simp [firstOccurrences]
  | cons a l ih =>
    simp only [firstOccurrences, List.mem_cons, List.mem_filter, ih]
    by_cases h : x = a <;> simp [h]

theorem lastWins_unique {ws : List (Str × Option Str)} {d d' : Options} (h : LastWins ws d) (h' : LastWins ws d') :
    d = d' := by
  apply dict_ext d d'
  · rw [h.1]; exact nodup_firstOccurrences _
  · rw [h.1, h'.1]
  · intro k; rw [h.2, h'.2]

theorem lastWins_iff {ws : List (Str × Option Str)} {d : Options} : LastWins ws d ↔ d = writeAll [] ws :=
  ⟨fun h => lastWins_unique h (lastWins_writeAll ws), fun h => h ▸ lastWins_writeAll ws⟩

theorem resolved_unique {E : Env δ ω} {s : Str} {d d' : Options} (h : Resolved E s d) (h' : Resolved E s d') :
    d = d' := by
  obtain ⟨evs, ht, hl⟩ := h
  obtain ⟨evs', ht', hl'⟩ := h'
  have := parseTrace_det ht ht'
  subst this
  exact lastWins_unique hl hl'

theorem resolved_total (E : Env δ ω) (s : Str) : ∃ d, Resolved E s d := by
  obtain ⟨evs, ht⟩ := parseTrace_total E s true true
  exact ⟨_, evs, ht, lastWins_writeAll _⟩

/-- Writing the same things a second time changes nothing. -/
theorem writeAll_idem (d : Options) (hd : (Dict.keys d).Nodup) (ws : List (Str × Option Str)) :
    writeAll (writeAll d ws) ws = writeAll d ws := by
  have hn : (Dict.keys (writeAll d ws)).Nodup := by
    rw [keys_writeAll, List.nodup_append]
    refine ⟨hd, (nodup_firstOccurrences _).filter _, ?_⟩
    intro a ha b hb hab
    subst hab
    simp [List.mem_filter] at hb
    exact hb.2 ha
  have hk : Dict.keys (writeAll (writeAll d ws) ws) = Dict.keys (writeAll d ws) := by
    rw [keys_writeAll (writeAll d ws)]
    have : ∀ x ∈ firstOccurrences (ws.map Prod.fst), x ∈ Dict.keys (writeAll d ws) := by
      intro x hx
      rw [keys_writeAll]
      by_cases h : x ∈ Dict.keys d
      · simp [h]
      · simp [List.mem_filter, hx, h]
    rw [List.filter_eq_nil_iff.mpr]
    · simp
    · intro x hx; simp [this x hx]
  apply dict_ext _ _ (by rw [hk]; exact hn) hk
  intro k
  rw [get?_writeAll (writeAll d ws), get?_writeAll d]
  cases lastWrite ws k <;> rfl

/-! ### effect of a replay -/

theorem notify_core (E : Env δ ω) (ev : Event) (n : Nat) (e : PyExc) (c : Core δ ω) :
    (notify E ev n e c).2.data = c.data ∧ (notify E ev n e c).2.checked = c.checked ∧
    (notify E ev n e c).2.shared = c.shared ∧ (notify E ev n e c).2.self = c.self := by
  unfold notify
  split
  · exact ⟨rfl, rfl, rfl, rfl⟩
  · split <;> exact ⟨rfl, rfl, rfl, rfl⟩

theorem onReturn_core (E : Env δ ω) (r : Ret) (c : Core δ ω) :
    (onReturn E r c).2.data = c.data ∧ (onReturn E r c).2.checked = c.checked ∧
    (onReturn E r c).2.shared = c.shared ∧ (onReturn E r c).2.self = c.self := by
  unfold onReturn
  cases r with
  | notInt => exact ⟨rfl, rfl, rfl, rfl⟩
  | int i =>
    simp only
    split
    · exact ⟨rfl, rfl, rfl, rfl⟩
    · split
      · exact ⟨rfl, rfl, rfl, rfl⟩
      · exact notify_core _ _ _ _ _

/-- Effect of one event on the stored data. -/
theorem evStep_data (E : Env δ ω) (root : Str) (ev : Ev δ ω) (c : Core δ ω) :
    (evStep E root ev c).2.data = match ev with
      | .visit s => if (Dict.get? c.data s).isSome then c.data else c.data ++ [(s, [])]
      | .store k v => Dict.set c.data root (Dict.set ((Dict.get? c.data root).getD []) k v)
      | _ => c.data := by
  cases ev with
  | visit s => simp only [evStep]; split <;> rfl
  | missing s => rfl
  | store k v => rfl
  | call h hc =>
    simp only [evStep]
    cases (h.run hc c.shared c.self).1 with
    | error e => rfl
    | ok v =>
      simp only
      split
      · exact (onReturn_core _ _ _).1
      · rfl
  | cycle s t => exact (notify_core _ _ _ _ _).1
  | ambiguous o => exact (notify_core _ _ _ _ _).1
  | fail e => rfl

theorem evStep_checked (E : Env δ ω) (root : Str) (ev : Ev δ ω) (c : Core δ ω) :
    (evStep E root ev c).2.checked = c.checked := by
  cases ev with
  | visit s => simp only [evStep]; split <;> rfl
  | missing s => rfl
  | store k v => rfl
  | call h hc =>
    simp only [evStep]
    cases (h.run hc c.shared c.self).1 with
    | error e => rfl
    | ok v =>
      simp only
      split
      · exact (onReturn_core _ _ _).2.1
      · rfl
  | cycle s t => exact (notify_core _ _ _ _ _).2.1
  | ambiguous o => exact (notify_core _ _ _ _ _).2.1
  | fail e => rfl

theorem replay_checked (E : Env δ ω) (root : Str) (evs : List (Ev δ ω)) (c : Core δ ω) :
    (replay E root evs c).2.checked = c.checked := by
  induction evs generalizing c with
  | nil => rfl
  | cons ev evs ih =>
    simp only [replay]
    have := evStep_checked E root ev c
    cases h : evStep E root ev c with
    | mk o c' =>
      rw [h] at this
      cases o with
      | none => simp only; rw [ih, ← this]
      | some e => exact this

theorem get?_append_single {ν : Type} (d : Dict Str ν) (s t : Str) (v : ν) (h : Dict.get? d s = none) :
    Dict.get? (d ++ [(s, v)]) t = if t = s then some v else Dict.get? d t := by
  rw [← Dict.set_of_get?_none d s v h, Dict.get?_set]

/-- The part of an event list that was carried out. -/
theorem replay_split (E : Env δ ω) (root : Str) (evs : List (Ev δ ω)) (c c' : Core δ ω) (e : PyExc)
    (h : replay E root evs c = (some e, c')) :
    ∃ a ev b c1, evs = a ++ ev :: b ∧ replay E root a c = (none, c1) ∧ evStep E root ev c1 = (some e, c') := by
  induction evs generalizing c with
  | nil => cases h
  | cons ev evs ih =>
    simp only [replay] at h
    cases hs : evStep E root ev c with
    | mk o c1 =>
      rw [hs] at h
      cases o with
      | some e' =>
        cases h
        exact ⟨[], ev, evs, c, rfl, rfl, hs⟩
      | none =>
        simp only at h
        obtain ⟨a, ev', b, c2, h1, h2, h3⟩ := ih c1 h
        refine ⟨ev :: a, ev', b, c2, by simp [h1], ?_, h3⟩
        simp only [replay, hs, h2]

/-- Data of the root after a completed replay. -/
theorem replay_root (E : Env δ ω) (root : Str) (evs : List (Ev δ ω)) (c c' : Core δ ω)
    (h : replay E root evs c = (none, c')) :
    Dict.get? c'.data root =
      if stores evs = [] ∧ root ∉ visits evs then Dict.get? c.data root
      else some (writeAll ((Dict.get? c.data root).getD []) (stores evs)) := by
  induction evs generalizing c with
  | nil => cases h; simp [stores, visits]
  | cons ev evs ih =>
    simp only [replay] at h
    have hd := evStep_data E root ev c
    cases hs : evStep E root ev c with
    | mk o c1 =>
      rw [hs] at h hd
      cases o with
      | some e => cases h
      | none =>
        simp only at h hd
        have := ih c1 h
        rw [this]
        cases ev with
        | visit s =>
          simp only at hd
          simp only [stores, visits, List.mem_cons, not_or]
          rw [hd]
          by_cases hr : root = s
          · subst hr
            simp only [not_true, false_and, and_false, if_false]
            cases hg : Dict.get? c.data root with
            | some d =>
              simp only [Option.isSome_some, if_true, hg, Option.getD_some]
              by_cases hx : stores evs = [] ∧ root ∉ visits evs
              · rw [if_pos hx, hx.1]; rfl
              · rw [if_neg hx]
            | none =>
              simp only [Option.isSome_none, Bool.false_eq_true, if_false,
                get?_append_single _ _ _ _ hg, if_true, Option.getD_some, Option.getD_none]
              by_cases hx : stores evs = [] ∧ root ∉ visits evs
              · rw [if_pos hx, hx.1]; rfl
              · rw [if_neg hx]
          · have hg : Dict.get? (if (Dict.get? c.data s).isSome = true then c.data else c.data ++ [(s, [])]) root =
                Dict.get? c.data root := by
              cases hg : Dict.get? c.data s with
              | some d => simp
              | none => simp [get?_append_single _ _ _ _ hg, hr]
            rw [hg]
            simp [hr]
        | store k v =>
          simp only at hd
          simp only [stores, visits]
          rw [hd, Dict.get?_set_self]
          simp only [reduceCtorEq, false_and, if_false, Option.getD_some]
          have hw : writeAll ((Dict.get? c.data root).getD []) ((k, v) :: stores evs) =
            writeAll (Dict.set ((Dict.get? c.data root).getD []) k v) (stores evs) := rfl
          rw [hw]
          by_cases hx : stores evs = [] ∧ root ∉ visits evs
          · rw [if_pos hx, hx.1]; rfl
          · rw [if_neg hx]
        | missing s => simp only at hd; rw [hd]; rfl
        | call g hc => simp only at hd; rw [hd]; rfl
        | cycle s t => simp only at hd; rw [hd]; rfl
        | ambiguous o => simp only at hd; rw [hd]; rfl
        | fail e => simp only at hd; rw [hd]; rfl

/-- Data of the other sections after any replay (completed or not). -/
theorem replay_other (E : Env δ ω) (root t : Str) (ht : t ≠ root) (evs : List (Ev δ ω)) (c : Core δ ω) :
    Dict.get? (replay E root evs c).2.data t = Dict.get? c.data t ∨
    (Dict.get? c.data t = none ∧ Dict.get? (replay E root evs c).2.data t = some [] ∧ t ∈ visits evs) := by
  induction evs generalizing c with
  | nil => exact .inl rfl
  | cons ev evs ih =>
    simp only [replay]
    have hd := evStep_data E root ev c
    have step : Dict.get? (evStep E root ev c).2.data t = Dict.get? c.data t ∨
        (Dict.get? c.data t = none ∧ Dict.get? (evStep E root ev c).2.data t = some [] ∧ t ∈ visits [ev]) := by
      rw [hd]
      cases ev with
      | visit s =>
        simp only
        cases hg : Dict.get? c.data s with
        | some d => exact .inl (by simp)
        | none =>
          simp only [Option.isSome_none, Bool.false_eq_true, if_false, get?_append_single _ _ _ _ hg]
          by_cases hts : t = s
          · subst hts; simp [visits, hg]
          · simp [hts]
      | store k v => left; simp only; rw [Dict.get?_set_ne _ _ ht]
      | missing s => exact .inl rfl
      | call g hc => exact .inl rfl
      | cycle s t => exact .inl rfl
      | ambiguous o => exact .inl rfl
      | fail e => exact .inl rfl
    have hv : visits (ev :: evs) = visits [ev] ++ visits evs := visits_append [ev] evs
    rw [hv]
    cases hs : evStep E root ev c with
    | mk o c1 =>
      rw [hs] at step
      cases o with
      | some e =>
        rcases step with h | ⟨h1, h2, h3⟩
        · exact .inl h
        · exact .inr ⟨h1, h2, by simp [h3]⟩
      | none =>
        simp only
        rcases ih c1 with h | ⟨h1, h2, h3⟩
        · rw [h]
          rcases step with h | ⟨g1, g2, g3⟩
          · exact .inl h
          · exact .inr ⟨g1, g2, by simp [g3]⟩
        · rcases step with h | ⟨g1, g2, g3⟩
          · simp only at h
            exact .inr ⟨by rw [← h]; exact h1, h2, by simp [h3]⟩
          · simp only at g2; rw [h1] at g2; cases g2

theorem replay_state (E : Env δ ω) (root : Str) (evs : List (Ev δ ω)) (c c' : Core δ ω)
    (h : replay E root evs c = (none, c')) : (c'.shared, c'.self) = foldCalls (calls evs) (c.shared, c.self) := by
  induction evs generalizing c with
  | nil => cases h; rfl
  | cons ev evs ih =>
    simp only [replay] at h
    cases hs : evStep E root ev c with
    | mk o c1 =>
      rw [hs] at h
      cases o with
      | some e => cases h
      | none =>
        simp only at h
        rw [ih c1 h]
        cases ev with
        | visit s =>
          simp only [evStep] at hs
          simp only [calls]
          split at hs <;> cases hs <;> rfl
        | store k v => cases hs; rfl
        | missing s => cases hs
        | fail e => cases hs
        | cycle s t =>
          have := notify_core E .warning 5 .valueError c
          simp only [evStep] at hs
          rw [hs] at this
          dsimp only at this
          simp only [calls, this.2.2.1, this.2.2.2]
        | ambiguous o =>
          have := notify_core E .serious 3 .ambiguousHandler c
          simp only [evStep] at hs
          rw [hs] at this
          dsimp only at this
          simp only [calls, this.2.2.1, this.2.2.2]
        | call g hc =>
          simp only [evStep] at hs
          simp only [calls, foldCalls]
          cases hr : (g.run hc c.shared c.self).1 with
          | error e => rw [hr] at hs; cases hs
          | ok v =>
            rw [hr] at hs
            simp only at hs
            by_cases hdd : g.decorated = true
            · rw [if_pos hdd] at hs
              have := onReturn_core E v { c with shared := (g.run hc c.shared c.self).2.1, self := (g.run hc c.shared c.self).2.2 }
              rw [hs] at this
              dsimp only at this
              simp only [this.2.2.1, this.2.2.2]
            · rw [if_neg hdd] at hs
              cases hs; rfl

end CPE
