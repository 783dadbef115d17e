import Verif.Proofs.Log
/-
Closed forms of completed replays: data, visited sections, notices.
-/
namespace CPE
open Spec
variable {δ ω : Type}

theorem parseTrace_inv {E : Env δ ω} {s : Str} {i f : Bool} {evs : List (Ev δ ω)} (h : ParseTrace E s i f evs) :
    ∃ evD evR, (i = true ∧ E.cfg.hasSection E.defaultName = true → Unrolls E s (.sec [] E.defaultName) evD) ∧
      (¬ (i = true ∧ E.cfg.hasSection E.defaultName = true) → evD = []) ∧
      Unrolls E s (.sec [] s) evR ∧
      evs = (if i then [.call E.hookInit (hookCall s py!"handler_initialize")] else []) ++ evD ++ evR ++
         (if f then [.call E.hookFinal (hookCall s py!"handler_finalize")] else []) := by
  cases h with
  | mk h1 h2 h3 => exact ⟨_, _, h1, h2, h3, rfl⟩

/-- If all the visited sections have an entry, a completed replay only rewrites the entry of the root. -/
theorem replay_data_closed (E : Env δ ω) (root : Str) (evs : List (Ev δ ω)) (c c' : Core δ ω)
    (h : replay E root evs c = (none, c')) (hv : ∀ t ∈ visits evs, (Dict.get? c.data t).isSome) (d : Options)
    (hd : Dict.get? c.data root = some d) : c'.data = Dict.set c.data root (writeAll d (stores evs)) := by
  induction evs generalizing c d with
  | nil => cases h; exact (Dict.set_eq_self _ _ _ hd).symm
  | cons ev evs ih =>
    simp only [replay] at h
    have hdt := evStep_data E root ev c
    cases hs : evStep E root ev c with
    | mk o c1 =>
      rw [hs] at h hdt
      cases o with
      | some e => cases h
      | none =>
        dsimp only at h hdt
        cases ev with
        | visit s =>
          dsimp only at hdt
          rw [if_pos (hv s (by simp [visits]))] at hdt
          have := ih c1 h (by rw [hdt]; exact fun t ht => hv t (by simp [visits, ht])) d (by rw [hdt]; exact hd)
          rw [this, hdt]; rfl
        | store k v =>
          dsimp only at hdt
          rw [hd, Option.getD_some] at hdt
          have := ih c1 h (fun t ht => by
              rw [hdt, Dict.get?_set]
              split
              · rfl
              · exact hv t (by simpa [visits] using ht)) (Dict.set d k v) (by rw [hdt, Dict.get?_set_self])
          rw [this, hdt, Dict.set_set]; rfl
        | missing s => cases hs
        | fail e => cases hs
        | call g hc =>
          dsimp only at hdt
          have := ih c1 h (by rw [hdt]; exact fun t ht => hv t (by simpa [visits] using ht)) d (by rw [hdt]; exact hd)
          rw [this, hdt]; rfl
        | cycle a b =>
          dsimp only at hdt
          have := ih c1 h (by rw [hdt]; exact fun t ht => hv t (by simpa [visits] using ht)) d (by rw [hdt]; exact hd)
          rw [this, hdt]; rfl
        | ambiguous op =>
          dsimp only at hdt
          have := ih c1 h (by rw [hdt]; exact fun t ht => hv t (by simpa [visits] using ht)) d (by rw [hdt]; exact hd)
          rw [this, hdt]; rfl

theorem evStep_has (E : Env δ ω) (root : Str) (ev : Ev δ ω) (c : Core δ ω) (t : Str) (h : (Dict.get? c.data t).isSome) :
    (Dict.get? (evStep E root ev c).2.data t).isSome := by
  rw [evStep_data]
  cases ev with
  | visit s =>
    dsimp only
    rw [get?_addSection]; split
    · rfl
    · exact h
  | store k v =>
    dsimp only
    rw [Dict.get?_set]; split
    · rfl
    · exact h
  | _ => exact h

theorem replay_has (E : Env δ ω) (root : Str) (evs : List (Ev δ ω)) (c : Core δ ω) (t : Str)
    (h : (Dict.get? c.data t).isSome) : (Dict.get? (replay E root evs c).2.data t).isSome := by
  induction evs generalizing c with
  | nil => exact h
  | cons ev evs ih =>
    simp only [replay]
    have h1 := evStep_has E root ev c t h
    cases hs : evStep E root ev c with
    | mk o c1 =>
      rw [hs] at h1
      cases o with
      | none => exact ih c1 h1
      | some e => exact h1

/-- A completed replay leaves an entry for every visited section. -/
theorem replay_visited (E : Env δ ω) (root : Str) (evs : List (Ev δ ω)) (c c' : Core δ ω)
    (h : replay E root evs c = (none, c')) (t : Str) (ht : t ∈ visits evs) : (Dict.get? c'.data t).isSome := by
  rw [mem_visits] at ht
  obtain ⟨a, b, rfl⟩ := List.append_of_mem ht
  obtain ⟨c1, _, h2⟩ := replay_none_prefix h
  simp only [replay, evStep] at h2
  have := replay_has E root b (if (Dict.get? c1.data t).isSome = true then c1 else { c1 with data := c1.data ++ [(t, [])] }) t (by
    cases hx : Dict.get? c1.data t with
    | none => simp [get?_append_single _ _ _ _ hx]
    | some v => simp [hx])
  rw [h2] at this
  exact this

/-- The notices of a completed replay, those of ValueError apart counted exactly: one for each cycle. -/
theorem replay_out (E : Env δ ω) (root : Str) (evs : List (Ev δ ω)) (c c' : Core δ ω)
    (h : replay E root evs c = (none, c')) :
    ∃ l, c'.out = c.out ++ l ∧
      (0 < E.level ∧ E.silentWarnings = false →
        (l.filter fun x => x.exc = .valueError) =
          List.replicate (cycles evs).length ⟨.warning, .valueError, E.compactWarnings⟩) ∧
      (E.level = 0 ∨ E.silentWarnings = true → l = []) := by
  have hn : ∀ ev th e (c c' : Core δ ω), notify E ev th e c = (none, c') →
      ∃ l, c'.out = c.out ++ l ∧ (0 < E.level ∧ E.silentWarnings = false → l = [⟨ev, e, E.compactWarnings⟩]) ∧
        (E.level = 0 ∨ E.silentWarnings = true → l = []) := by
    intro ev th e c c' h
    unfold notify at h
    split at h
    · cases h
    · split at h
      · rename_i hc
        cases h
        refine ⟨_, rfl, fun _ => rfl, fun hx => ?_⟩
        rcases hx with hx | hx
        · omega
        · rw [hx] at hc; cases hc.2
      · rename_i hc
        cases h
        exact ⟨[], by simp, fun hx => absurd hx hc, fun _ => rfl⟩
  induction evs generalizing c with
  | nil => cases h; exact ⟨[], by simp, fun _ => rfl, fun _ => rfl⟩
  | cons ev evs ih =>
    simp only [replay] at h
    cases hs : evStep E root ev c with
    | mk o c1 =>
      rw [hs] at h
      cases o with
      | some e => cases h
      | none =>
        dsimp only at h
        obtain ⟨l, h1, h2, h3⟩ := ih c1 h
        have quiet : c1.out = c.out → cycles (ev :: evs) = cycles evs →
            ∃ l, c'.out = c.out ++ l ∧
            (0 < E.level ∧ E.silentWarnings = false →
              (l.filter fun x => x.exc = .valueError) =
                List.replicate (cycles (ev :: evs)).length ⟨.warning, .valueError, E.compactWarnings⟩) ∧
            (E.level = 0 ∨ E.silentWarnings = true → l = []) := by
          intro hq hc
          rw [hc]
          exact ⟨l, by rw [h1, hq], h2, h3⟩
        have other : ∀ l0, c1.out = c.out ++ l0 → (∀ x ∈ l0, x.exc ≠ .valueError) →
            (E.level = 0 ∨ E.silentWarnings = true → l0 = []) → cycles (ev :: evs) = cycles evs →
            ∃ l, c'.out = c.out ++ l ∧
            (0 < E.level ∧ E.silentWarnings = false →
              (l.filter fun x => x.exc = .valueError) =
                List.replicate (cycles (ev :: evs)).length ⟨.warning, .valueError, E.compactWarnings⟩) ∧
            (E.level = 0 ∨ E.silentWarnings = true → l = []) := by
          intro l0 hq h0 hz hc
          rw [hc]
          refine ⟨l0 ++ l, by rw [h1, hq, List.append_assoc], fun hx => ?_, fun hx => by rw [hz hx, h3 hx]; rfl⟩
          rw [List.filter_append, h2 hx, List.filter_eq_nil_iff.mpr]
          · rfl
          · intro x hx; simpa using h0 x hx
        cases ev with
        | visit s =>
          refine quiet ?_ rfl
          unfold evStep at hs
          dsimp only at hs
          split at hs <;> cases hs <;> rfl
        | store k v => exact quiet (by unfold evStep at hs; cases hs; rfl) rfl
        | missing s => cases hs
        | fail e => cases hs
        | cycle a b =>
          obtain ⟨l0, g1, g2, g3⟩ := hn _ _ _ _ _ hs
          refine ⟨l0 ++ l, by rw [h1, g1, List.append_assoc], fun hx => ?_, fun hx => by rw [g3 hx, h3 hx]; rfl⟩
          rw [g2 hx, List.filter_append, h2 hx]
          simp [cycles, List.replicate_succ]
        | ambiguous op =>
          obtain ⟨l0, g1, g2, g3⟩ := hn _ _ _ _ _ hs
          refine other l0 g1 ?_ g3 rfl
          by_cases hx : 0 < E.level ∧ E.silentWarnings = false
          · rw [g2 hx]; simp
          · rw [g3 (by
              by_cases hl : E.level = 0
              · exact .inl hl
              · exact .inr (by cases hsw : E.silentWarnings with
                  | true => rfl
                  | false => exact absurd ⟨by omega, hsw⟩ hx))]
            simp
        | call g hc =>
          unfold evStep at hs
          dsimp only at hs
          split at hs
          · cases hs
          · split at hs
            · unfold onReturn at hs
              split at hs
              · cases hs
              · split at hs
                · cases hs; exact quiet rfl rfl
                · split at hs
                  · cases hs
                  · obtain ⟨l0, g1, g2, g3⟩ := hn _ _ _ _ _ hs
                    refine other l0 g1 ?_ g3 rfl
                    by_cases hx : 0 < E.level ∧ E.silentWarnings = false
                    · rw [g2 hx]; simp
                    · rw [g3 (by
                        by_cases hl : E.level = 0
                        · exact .inl hl
                        · exact .inr (by cases hsw : E.silentWarnings with
                            | true => rfl
                            | false => exact absurd ⟨by omega, hsw⟩ hx))]
                      simp
            · cases hs; exact quiet rfl rfl

end CPE
