import Verif.Proofs.ReentrantRuns
import Verif.Proofs.Closed
import Verif.Spec.Resolve
/-
What follows from the rules of `Runs`.
-/
namespace CPE.Re
open CPE CPE.Spec CPE.Re.Spec
variable {δ ω : Type} {E : Env δ ω} {P : HCall → Prog δ ω}

/-- A job ends in one way only. -/
theorem runs_det {j : Job δ ω} {v v1 v2 : View δ ω} {r1 r2 : Res δ} (h1 : Runs E P j v r1 v1) (h2 : Runs E P j v r2 v2) :
    r1 = r2 ∧ v1 = v2 := by
  obtain ⟨d1, h1⟩ := evals_complete h1
  obtain ⟨d2, h2⟩ := evals_complete h2
  have h1 := h1 (max d1 d2) (by omega)
  have h2 := h2 (max d1 d2) (by omega)
  cases j <;> cases r1 <;> cases r2 <;> simp only [Evals] at h1 h2 <;> rw [h1] at h2 <;> cases h2 <;> exact ⟨rfl, rfl⟩

/-- A property of views that every elementary step keeps is kept by every job. -/
theorem runs_pres {Q : View δ ω → Prop} {j : Job δ ω} {v v' : View δ ω} {r : Res δ} (h : Runs E P j v r v')
    (hev : ∀ root ev (v : View δ ω), Quiet ev → Q v → Q { v with toCore := (evStep { E with level := v.level } root ev v.toCore).2 })
    (haf : ∀ g x (v : View δ ω), Q v → Q { v with toCore := (afterwards E g x v).2 })
    (hst : ∀ (v : View δ ω) d o l n, Q v → Q { v with shared := d, self := o, last := l, level := n })
    (hck : ∀ (v : View δ ω) s, Q v → Q { v with checked := setAdd v.checked s })
    (hw : ∀ (v : View δ ω) s k x, Q v → Q (written v s k x)) : Q v → Q v' := by
  induction h with
  | nil => exact id
  | @event root ev evs v c r v' hq he _ ih =>
    intro h
    have := hev root ev v hq h
    rw [he] at this
    exact ih this
  | @raise root ev evs v c e hq he =>
    intro h
    have := hev root ev v hq h
    rw [he] at this
    exact this
  | @call root g hc evs v x v1 c r v' _ he _ ih1 ih2 =>
    intro h
    have := haf g x v1 (ih1 h)
    rw [he] at this
    exact ih2 this
  | @callFails root g hc evs v x v1 c e _ he ih1 =>
    intro h
    have := haf g x v1 (ih1 h)
    rw [he] at this
    exact this
  | callRaises _ ih => exact ih
  | returns => exact id
  | raises => exact id
  | look _ ih => exact ih
  | @put d o k v r v' _ ih => exact fun h => ih (hst v d o v.last v.level h)
  | @level i n k v r v' _ _ ih => exact fun h => ih (hst v v.shared v.self v.last n h)
  | @parses s i f k v x y v1 r v' _ _ _ ih1 ih2 => exact fun h => ih2 (hst v1 v.shared v1.self v1.last v1.level (ih1 h))
  | gets _ _ ih => exact ih
  | @getParses s k v d v1 r v' _ _ _ ih1 ih2 =>
    exact fun h => ih2 (hst v1 v.shared v1.self v1.last v1.level (ih1 (hck v s h)))
  | @getFails s k v e v1 r v' _ _ _ ih1 ih2 =>
    exact fun h => ih2 (hst v1 v.shared v1.self v1.last v1.level (ih1 (hck v s h)))
  | @sets s key x k v r v' _ _ ih => exact fun h => ih (hw v s key x h)
  | @setParses s key x k v d v1 r v' _ _ _ _ ih1 ih2 =>
    exact fun h => ih2 (hst (written v1 s key x) v.shared v1.self v1.last v1.level (hw v1 s key x (ih1 (hck v s h))))
  | @setFails s key x k v e v1 r v' _ _ _ _ ih1 ih2 =>
    exact fun h => ih2 (hst v1 v.shared v1.self v1.last v1.level (ih1 (hck v s h)))
  | noName => exact id
  | @parsed s i f evs v v1 _ _ _ ih =>
    intro h
    have h1 := ih (hst { v with checked := setAdd v.checked s } E.emptyShared v.self v.last v.level (hck v s h))
    exact hst v1 v1.shared v1.self (some v1.shared) v1.level h1
  | @failed s i f evs v e v1 _ _ _ ih =>
    exact fun h => ih (hst { v with checked := setAdd v.checked s } E.emptyShared v.self v.last v.level (hck v s h))

theorem runs_grows {j : Job δ ω} {v v' : View δ ω} {r : Res δ} (h : Runs E P j v r v') {t : Str} :
    t ∈ v.checked → t ∈ v'.checked := by
  refine runs_pres (Q := fun v => t ∈ v.checked) h ?_ ?_ ?_ ?_ ?_
  · intro root ev v _ ht
    show t ∈ (evStep _ _ _ _).2.checked
    rw [evStep_checked]; exact ht
  · intro g x v ht
    show t ∈ (afterwards E g x v).2.checked
    rw [afterwards_checked]; exact ht
  · exact fun _ _ _ _ _ ht => ht
  · exact fun v s ht => (mem_setAdd _ _ _).mpr (.inr ht)
  · exact fun _ _ _ _ ht => ht

theorem afterwards_data (g : Handler δ ω) (x : Ret) (v : View δ ω) : (afterwards E g x v).2.data = v.data := by
  unfold afterwards
  split
  · exact (onReturn_core _ _ _).1
  · rfl

theorem runs_has {j : Job δ ω} {v v' : View δ ω} {r : Res δ} (h : Runs E P j v r v') {t : Str} :
    (Dict.get? v.data t).isSome → (Dict.get? v'.data t).isSome := by
  refine runs_pres (Q := fun v => ((Dict.get? v.data t).isSome : Prop)) h ?_ ?_ ?_ ?_ ?_
  · intro root ev v _ ht
    exact evStep_has _ root ev v.toCore t ht
  · intro g x v ht
    show (Dict.get? (afterwards E g x v).2.data t).isSome
    rw [afterwards_data]; exact ht
  · exact fun _ _ _ _ _ ht => ht
  · exact fun _ _ ht => ht
  · intro v s k x ht
    show (Dict.get? (Dict.set _ _ _) t).isSome
    rw [Dict.get?_set]
    split
    · rfl
    · exact ht

/-! ### Every parse ends -/

/-- How many names of `L` have not been marked. -/
def unmarked (L : List Str) (v : View δ ω) : Nat := (L.filter fun t => decide (t ∉ v.checked)).length

theorem unmarked_le {L : List Str} {v v' : View δ ω} (h : ∀ t, t ∈ v.checked → t ∈ v'.checked) : unmarked L v' ≤ unmarked L v := by
  unfold unmarked
  induction L with
  | nil => exact Nat.le_refl _
  | cons a L ih =>
    simp only [List.filter_cons]
    by_cases h1 : a ∈ v.checked
    · simpa [h1, h a h1] using ih
    · by_cases h2 : a ∈ v'.checked
      · simp [h1, h2]; simp at ih; omega
      · simp [h1, h2]; simpa using ih

theorem unmarked_lt {L : List Str} {v v' : View δ ω} (h : ∀ t, t ∈ v.checked → t ∈ v'.checked) {s : Str} (hs : s ∈ L)
    (h1 : s ∉ v.checked) (h2 : s ∈ v'.checked) : unmarked L v' < unmarked L v := by
  induction L with
  | nil => cases hs
  | cons a L ih =>
    have hle := unmarked_le (L := L) h
    unfold unmarked at hle ih ⊢
    simp only [List.filter_cons]
    rcases List.mem_cons.mp hs with rfl | hs
    · simp [h1, h2]; simp at hle; omega
    · have := ih hs
      by_cases g1 : a ∈ v.checked
      · simpa [g1, h a g1] using this
      · by_cases g2 : a ∈ v'.checked
        · simp [g1, g2]; simp at this; omega
        · simp [g1, g2]; simpa using this

/-- The job ends from every view with at most `m` unmarked names. -/
def Ends (E : Env δ ω) (P : HCall → Prog δ ω) (L : List Str) (m : Nat) (j : Job δ ω) : Prop :=
  ∀ v, unmarked L v ≤ m → ∃ r v', Runs E P j v r v'

theorem handler_result {p : Prog δ ω} {v v' : View δ ω} {r : Res δ} (h : Runs E P (.handler p) v r v') :
    (∃ x, r = .returns x) ∨ ∃ e, r = .raises e := by
  obtain ⟨d, h⟩ := evals_complete h
  have := h d (Nat.le_refl _)
  cases r with
  | returns x => exact .inl ⟨x, rfl⟩
  | raises e => exact .inr ⟨e, rfl⟩
  | fine => exact this.elim
  | gives x => exact this.elim

theorem parse_result {s : Str} {i f : Bool} {v v' : View δ ω} {r : Res δ} (h : Runs E P (.parse s i f) v r v') :
    (∃ x, r = .gives x) ∨ ∃ e, r = .raises e := by
  obtain ⟨d, h⟩ := evals_complete h
  have := h d (Nat.le_refl _)
  cases r with
  | gives x => exact .inl ⟨x, rfl⟩
  | raises e => exact .inr ⟨e, rfl⟩
  | fine => exact this.elim
  | returns x => exact this.elim

theorem events_result {root : Str} {evs : List (Ev δ ω)} {v v' : View δ ω} {r : Res δ} (h : Runs E P (.events root evs) v r v') :
    r = .fine ∨ ∃ e, r = .raises e := by
  obtain ⟨d, h⟩ := evals_complete h
  have := h d (Nat.le_refl _)
  cases r with
  | fine => exact .inl rfl
  | raises e => exact .inr ⟨e, rfl⟩
  | gives x => exact this.elim
  | returns x => exact this.elim

theorem events_end {L : List Str} {m : Nat} (h : ∀ c, Ends E P L m (.handler (P c))) (root : Str) (evs : List (Ev δ ω)) :
    Ends E P L m (.events root evs) := by
  induction evs with
  | nil => exact fun v _ => ⟨_, _, .nil⟩
  | cons ev evs ih =>
    intro v hv
    by_cases hq : Quiet ev
    · cases he : evStep { E with level := v.level } root ev v.toCore with
      | mk o c =>
        cases o with
        | some e => exact ⟨_, _, .raise hq he⟩
        | none =>
          obtain ⟨r, v', hr⟩ := ih { v with toCore := c } (by
            refine Nat.le_trans (unmarked_le fun t ht => ?_) hv
            have := evStep_checked { E with level := v.level } root ev v.toCore
            rw [he] at this
            show t ∈ c.checked
            rw [this]; exact ht)
          exact ⟨r, v', .event hq he hr⟩
    · cases ev with
      | call g hc =>
        obtain ⟨r, v1, hr⟩ := h hc v hv
        rcases handler_result hr with ⟨x, rfl⟩ | ⟨e, rfl⟩
        · cases he : afterwards E g x v1 with
          | mk o c =>
            cases o with
            | some e => exact ⟨_, _, .callFails hr he⟩
            | none =>
              obtain ⟨r, v', hr'⟩ := ih { v1 with toCore := c } (by
                refine Nat.le_trans (unmarked_le fun t ht => ?_) hv
                have := afterwards_checked (E := E) g x v1
                rw [he] at this
                show t ∈ c.checked
                rw [this]; exact runs_grows hr ht)
              exact ⟨r, v', .call hr he hr'⟩
        · exact ⟨_, _, .callRaises hr⟩
      | _ => exact absurd trivial hq

theorem parse_end {L : List Str} {m : Nat} (h : ∀ c, Ends E P L m (.handler (P c))) (s : Str) (i f : Bool) :
    Ends E P L m (.parse s i f) := by
  intro v hv
  by_cases hs : s = []
  · subst hs; exact ⟨_, _, .noName⟩
  · obtain ⟨evs, ht⟩ := parseTrace_total E s i f
    obtain ⟨r, v', hr⟩ := events_end h s evs { v with shared := E.emptyShared, checked := setAdd v.checked s }
      (Nat.le_trans (unmarked_le fun t ht => (mem_setAdd _ _ _).mpr (.inr ht)) hv)
    rcases events_result hr with rfl | ⟨e, rfl⟩
    · exact ⟨_, _, .parsed hs ht hr⟩
    · exact ⟨_, _, .failed hs ht hr⟩

theorem hasSection_mem {c : Cfg} {s : Str} (h : c.hasSection s = true) : s ∈ c.allNames := by
  unfold Cfg.hasSection Cfg.allNames at *
  refine List.mem_cons.mpr (.inr ?_)
  unfold Cfg.sectionNames
  exact (Dict.mem_iff _ _).mp h

theorem looks_end {L : List Str} (hP : ∀ c, Looks L (P c)) (m : Nat) :
    ∀ p : Prog δ ω, Looks L p → Ends E P (L ++ E.cfg.allNames) m (.handler p) := by
  induction m using Nat.strongRecOn with
  | _ m IH =>
    intro p
    -- a nested parse, of a section that was not marked
    have sub : ∀ s v, s ∈ L ++ E.cfg.allNames → s ∉ v.checked → unmarked (L ++ E.cfg.allNames) v ≤ m →
        ∃ r v', Runs E P (.parse s true true) { v with checked := setAdd v.checked s } r v' := by
      intro s v hs hv hm
      have hlt : unmarked (L ++ E.cfg.allNames) { v with checked := setAdd v.checked s } < unmarked (L ++ E.cfg.allNames) v :=
        unmarked_lt (fun t ht => (mem_setAdd _ _ _).mpr (.inr ht)) hs hv ((mem_setAdd _ _ _).mpr (.inl rfl))
      exact parse_end (fun c => IH _ (by omega) (P c) (hP c)) s true true _ (Nat.le_refl _)
    have back : ∀ {s : Str} {v v1 : View δ ω} {r}, Runs E P (.parse s true true) { v with checked := setAdd v.checked s } r v1 →
        unmarked (L ++ E.cfg.allNames) v ≤ m → unmarked (L ++ E.cfg.allNames) { v1 with shared := v.shared } ≤ m := by
      intro s v v1 r hr hm
      exact Nat.le_trans (unmarked_le fun t ht => runs_grows hr ((mem_setAdd _ _ _).mpr (.inr ht))) hm
    induction p with
    | done r =>
      intro _ v _
      cases r with
      | ok x => exact ⟨_, _, .returns⟩
      | error e => exact ⟨_, _, .raises⟩
    | look k ih =>
      intro h v hv
      obtain ⟨r, v', hr⟩ := ih v.shared v.self (h _ _) v hv
      exact ⟨r, v', .look hr⟩
    | put d o k ih =>
      intro h v hv
      obtain ⟨r, v', hr⟩ := ih h { v with shared := d, self := o } hv
      exact ⟨r, v', .put hr⟩
    | level i k ih =>
      intro h v hv
      obtain ⟨r, v', hr⟩ := ih h { v with level := (min 5 (max 0 i)).toNat } hv
      exact ⟨r, v', .level (by omega) hr⟩
    | parse s i f k ih => exact fun h => h.elim
    | get s k ih =>
      intro h v hv
      by_cases hs : s ∈ v.checked
      · obtain ⟨r, v', hr⟩ := ih _ (h.2 (collected v s)) v hv
        exact ⟨r, v', .gets hs hr⟩
      · obtain ⟨r, v1, hr⟩ := sub s v (by simp [h.1]) hs hv
        rcases parse_result hr with ⟨x, rfl⟩ | ⟨e, rfl⟩
        · obtain ⟨r, v', hr'⟩ := ih _ (h.2 (collected v1 s)) _ (back hr hv)
          exact ⟨r, v', .getParses hs hr hr'⟩
        · obtain ⟨r, v', hr'⟩ := ih _ (h.2 (.error e)) _ (back hr hv)
          exact ⟨r, v', .getFails hs hr hr'⟩
    | set s key x k ih =>
      intro h v hv
      by_cases hs : E.cfg.hasSection s = true → s ∈ v.checked
      · obtain ⟨r, v', hr⟩ := ih _ (h (.ok ())) (written v s key x) hv
        exact ⟨r, v', .sets hs hr⟩
      · have hc : E.cfg.hasSection s = true := Classical.byContradiction fun hc => hs fun h => absurd h hc
        have hs : s ∉ v.checked := fun hx => hs fun _ => hx
        obtain ⟨r, v1, hr⟩ := sub s v (by simp [hasSection_mem hc]) hs hv
        rcases parse_result hr with ⟨d, rfl⟩ | ⟨e, rfl⟩
        · obtain ⟨r, v', hr'⟩ := ih _ (h (.ok ())) { written v1 s key x with shared := v.shared } (show unmarked _ { v1 with shared := v.shared } ≤ m from back hr hv)
          exact ⟨r, v', .setParses hc hs hr hr'⟩
        · obtain ⟨r, v', hr'⟩ := ih _ (h (.error e)) _ (back hr hv)
          exact ⟨r, v', .setFails hc hs hr hr'⟩

/-! ### The options of the section being parsed -/

/-- The options collected for `s`. -/
def own (v : View δ ω) (s : Str) : Options := (Dict.get? v.data s).getD []

theorem own_written {v : View δ ω} {s t k : Str} {x : Option Str} (h : t ≠ s) : own (written v t k x) s = own v s := by
  unfold own written
  rw [Dict.get?_set_ne _ _ (fun hx => h hx.symm)]

theorem own_step {l : Nat} {root s : Str} {ev : Ev δ ω} {v : View δ ω} :
    own { v with toCore := (evStep { E with level := l } root ev v.toCore).2 } s =
      match ev with
      | .store k x => if root = s then Dict.set (own v s) k x else own v s
      | _ => own v s := by
  have hd := evStep_data { E with level := l } root ev v.toCore
  unfold own
  dsimp only
  rw [hd]
  cases ev with
  | visit t =>
    dsimp only
    split
    · rfl
    · rename_i hn
      have hn : Dict.get? v.data t = none := by simpa using hn
      rw [get?_append_single _ _ _ _ hn]
      split
      · rename_i h; subst h; rw [hn]; rfl
      · rfl
  | store k x =>
    dsimp only
    by_cases h : root = s
    · subst h; rw [if_pos rfl, Dict.get?_set_self]; rfl
    · rw [if_neg h, Dict.get?_set_ne _ _ (fun hx => h hx.symm)]
  | _ => rfl

/-- Jobs that do not concern the section `s`. -/
def Apart (s : Str) : Job δ ω → Prop
  | .events root _ => root ≠ s
  | .handler p => Spares s p
  | .parse t _ _ => t ≠ s

theorem runs_apart {s : Str} (hP : ∀ c, Spares s (P c)) {j : Job δ ω} {v v' : View δ ω} {r : Res δ} (h : Runs E P j v r v') :
    Apart s j → s ∈ v.checked → own v' s = own v s := by
  induction h with
  | nil => exact fun _ _ => rfl
  | @event root ev evs v c r v' hq he _ ih =>
    intro ha hs
    have h1 := own_step (E := E) (l := v.level) (root := root) (s := s) (ev := ev) (v := v)
    have h2 := evStep_checked { E with level := v.level } root ev v.toCore
    rw [he] at h1 h2
    rw [ih ha (by rw [h2]; exact hs), h1]
    cases ev <;> simp only [if_neg (show root ≠ s from ha)]
  | @raise root ev evs v c e hq he =>
    intro ha hs
    have h1 := own_step (E := E) (l := v.level) (root := root) (s := s) (ev := ev) (v := v)
    rw [he] at h1
    rw [h1]
    cases ev <;> simp only [if_neg (show root ≠ s from ha)]
  | @call root g hc evs v x v1 c r v' hr he _ ih1 ih2 =>
    intro ha hs
    have h1 := afterwards_data (E := E) g x v1
    have h2 := afterwards_checked (E := E) g x v1
    rw [he] at h1 h2
    have h3 : own { v1 with toCore := c } s = own v1 s := by unfold own; dsimp only at h1 ⊢; rw [h1]
    rw [ih2 ha (by rw [h2]; exact runs_grows hr hs), h3, ih1 (hP hc) hs]
  | @callFails root g hc evs v x v1 c e hr he ih1 =>
    intro ha hs
    have h1 := afterwards_data (E := E) g x v1
    rw [he] at h1
    have h3 : own { v1 with toCore := c } s = own v1 s := by unfold own; dsimp only at h1 ⊢; rw [h1]
    rw [h3, ih1 (hP hc) hs]
  | @callRaises root g hc evs v e v1 _ ih => exact fun _ hs => ih (hP hc) hs
  | returns => exact fun _ _ => rfl
  | raises => exact fun _ _ => rfl
  | look _ ih => exact fun ha hs => ih (ha _ _) hs
  | put _ ih => exact fun ha hs => ih ha hs
  | level _ _ ih => exact fun ha hs => ih ha hs
  | @parses t i f k v x y v1 r v' hr _ _ ih1 ih2 =>
    intro ha hs
    exact (ih2 (ha.2 y) (runs_grows hr hs)).trans (ih1 ha.1 hs)
  | gets _ _ ih => exact fun ha hs => ih (ha _) hs
  | @getParses t k v d v1 r v' ht hr _ ih1 ih2 =>
    intro ha hs
    have hts : t ≠ s := fun h => ht (h ▸ hs)
    have hc : s ∈ setAdd v.checked t := (mem_setAdd _ _ _).mpr (.inr hs)
    exact (ih2 (ha _) (runs_grows hr hc)).trans (ih1 hts hc)
  | @getFails t k v e v1 r v' ht hr _ ih1 ih2 =>
    intro ha hs
    have hts : t ≠ s := fun h => ht (h ▸ hs)
    have hc : s ∈ setAdd v.checked t := (mem_setAdd _ _ _).mpr (.inr hs)
    exact (ih2 (ha _) (runs_grows hr hc)).trans (ih1 hts hc)
  | @sets t key x k v r v' _ _ ih =>
    intro ha hs
    exact (ih (ha.2 _) hs).trans (own_written ha.1)
  | @setParses t key x k v d v1 r v' _ ht hr _ ih1 ih2 =>
    intro ha hs
    have hc : s ∈ setAdd v.checked t := (mem_setAdd _ _ _).mpr (.inr hs)
    have h1 := ih2 (ha.2 _) (show s ∈ v1.checked from runs_grows hr hc)
    exact (h1.trans (own_written (v := v1) ha.1)).trans (ih1 ha.1 hc)
  | @setFails t key x k v e v1 r v' _ ht hr _ ih1 ih2 =>
    intro ha hs
    have hc : s ∈ setAdd v.checked t := (mem_setAdd _ _ _).mpr (.inr hs)
    exact (ih2 (ha.2 _) (runs_grows hr hc)).trans (ih1 ha.1 hc)
  | noName => exact fun _ _ => rfl
  | @parsed t i f evs v v1 _ _ _ ih => exact fun ha hs => ih ha ((mem_setAdd _ _ _).mpr (.inr hs))
  | @failed t i f evs v e v1 _ _ _ ih => exact fun ha hs => ih ha ((mem_setAdd _ _ _).mpr (.inr hs))

theorem events_own {s : Str} (hP : ∀ c, Spares s (P c)) (evs : List (Ev δ ω)) {v v' : View δ ω}
    (h : Runs E P (.events s evs) v .fine v') (hs : s ∈ v.checked) : own v' s = writeAll (own v s) (stores evs) := by
  induction evs generalizing v with
  | nil => cases h; rfl
  | cons ev evs ih =>
    cases h with
    | @event _ _ _ _ c _ _ hq he hr =>
      have h1 := own_step (E := E) (l := v.level) (root := s) (s := s) (ev := ev) (v := v)
      have h2 := evStep_checked { E with level := v.level } s ev v.toCore
      rw [he] at h1 h2
      rw [ih hr (by rw [h2]; exact hs), h1]
      cases ev <;> first | rfl | (simp only [if_true]; rfl) | exact absurd hq id
    | @call _ g hc _ _ x v1 c _ _ hr he hr2 =>
      have h1 := afterwards_data (E := E) g x v1
      have h2 := afterwards_checked (E := E) g x v1
      rw [he] at h1 h2
      have h3 : own { v1 with toCore := c } s = own v1 s := by unfold own; dsimp only at h1 ⊢; rw [h1]
      rw [ih hr2 (by rw [h2]; exact runs_grows hr hs), h3, runs_apart hP hr (hP hc) hs]
      rfl

theorem events_visit {s t : Str} {evs : List (Ev δ ω)} {v v' : View δ ω}
    (h : Runs E P (.events s evs) v .fine v') (ht : .visit t ∈ evs) : (Dict.get? v'.data t).isSome := by
  induction evs generalizing v with
  | nil => cases ht
  | cons ev evs ih =>
    rcases List.mem_cons.mp ht with h1 | h1
    · subst h1
      cases h with
      | @event _ _ _ _ c _ _ hq he hr =>
        refine runs_has hr ?_
        have hd := evStep_data { E with level := v.level } s (.visit t) v.toCore
        rw [he] at hd
        show (Dict.get? c.data t).isSome
        dsimp only at hd
        rw [hd]
        split
        · assumption
        · rename_i hn
          rw [get?_append_single _ _ _ _ (by simpa using hn), if_pos rfl]
          rfl
    · cases h with
      | event _ _ hr => exact ih hr h1
      | call _ _ hr => exact ih hr h1

theorem events_missing {s t : Str} {evs : List (Ev δ ω)} {v v' : View δ ω} (ht : .missing t ∈ evs) :
    ¬ Runs E P (.events s evs) v .fine v' := by
  induction evs generalizing v with
  | nil => cases ht
  | cons ev evs ih =>
    intro h
    rcases List.mem_cons.mp ht with h1 | h1
    · subst h1
      cases h with
      | event hq he hr => cases he
    · cases h with
      | event _ _ hr => exact ih h1 hr
      | call _ _ hr => exact ih h1 hr

theorem trace_root {s : Str} {i f : Bool} {evs : List (Ev δ ω)} (h : ParseTrace E s i f evs) :
    .visit s ∈ evs ∨ .missing s ∈ evs := by
  obtain ⟨_, _, h3⟩ := h
  cases h3 with
  | missing _ => exact .inr (by simp)
  | sec _ _ => exact .inl (by simp)

/-! ### The shared data -/

theorem runs_noPut {j : Job δ ω} {v v' : View δ ω} {r : Res δ} (h : Runs E P j v r v') :
    ∀ p, j = .handler p → NoPut p → v'.shared = v.shared := by
  induction h with
  | returns => exact fun _ _ _ => rfl
  | raises => exact fun _ _ _ => rfl
  | look _ ih => rintro p ⟨⟩ h; exact ih _ rfl (h _ _)
  | put _ _ => rintro p ⟨⟩ h; exact h.elim
  | level _ _ ih => rintro p ⟨⟩ h; exact ih _ rfl h
  | parses _ _ _ _ ih => rintro p ⟨⟩ h; exact ih _ rfl (h _)
  | gets _ _ ih => rintro p ⟨⟩ h; exact ih _ rfl (h _)
  | getParses _ _ _ _ ih => rintro p ⟨⟩ h; exact ih _ rfl (h _)
  | getFails _ _ _ _ ih => rintro p ⟨⟩ h; exact ih _ rfl (h _)
  | sets _ _ ih => rintro p ⟨⟩ h; exact ih _ rfl (h _)
  | setParses _ _ _ _ _ ih => rintro p ⟨⟩ h; exact ih _ rfl (h _)
  | setFails _ _ _ _ _ ih => rintro p ⟨⟩ h; exact ih _ rfl (h _)
  | _ => intro p h; cases h

/-! ### Parsing the same section again -/

theorem again_diverges {s : Str} {i f : Bool} {a b : List (Ev δ ω)} {g : Handler δ ω} {hc : HCall} {k : Except PyExc δ → Prog δ ω}
    (hs : s ≠ []) (ht : ParseTrace E s i f (a ++ .call g hc :: b)) (hk : P hc = .parse s i f k)
    (ha : ∀ v, ∃ v1, Runs E P (.events s a) v .fine v1) (d : Nat) : ∀ v, (evalD E P d s i f v).1 = .diverge := by
  induction d with
  | zero => exact fun _ => rfl
  | succ d ih =>
    intro v
    show (evalS E P (evalD E P d) s i f v).1 = _
    unfold evalS
    rw [if_neg hs, traceOf_eq ht, replayW_append, M.bind_assoc]
    obtain ⟨v1, h1⟩ := ha { v with shared := E.emptyShared, checked := setAdd v.checked s }
    have hsound := replay_sound (E := E) (P := P) (sound_evalD d) s a { v with shared := E.emptyShared, checked := setAdd v.checked s }
    rw [M.bind_def]
    cases hr : replayW E P (evalD E P d) s a { v with shared := E.emptyShared, checked := setAdd v.checked s } with
    | mk o w =>
      cases o with
      | diverge => rfl
      | exc e =>
        have := (runs_det ((hsound w).2 e hr) h1).1
        cases this
      | ok u =>
        have hdiv : ∃ w', stepW E P (evalD E P d) s (.call g hc) w = (.diverge, w') := by
          have hi := ih w
          unfold stepW
          dsimp only
          rw [hk, M.bind_def]
          simp only [evalProg]
          rw [M.bind_def]
          unfold besides
          cases hx : evalD E P d s i f w with
          | mk o w' =>
            rw [hx] at hi
            simp only at hi
            subst hi
            exact ⟨_, rfl⟩
        obtain ⟨w', hdiv⟩ := hdiv
        dsimp only
        rw [M.bind_def]
        unfold replayW
        rw [M.forEach_cons, M.bind_def, hdiv]

/-! ### Reading off a run -/

theorem viewOf_data (st : State δ ω) : (viewOf st).data = st.data := rfl

theorem runs_of_ok {n d : Nat} {s : Str} {i f : Bool} {st : State δ ω} {x : δ} (hn : E.cfg.sectionNames.length + 3 ≤ n)
    (hd : E.cfg.hasSection E.defaultName = true → ∀ s, Reaches E E.defaultName s → s = E.defaultName)
    (h : (parse E P d n s i f st).1 = .ok x) :
    Runs E P (.parse s i f) (viewOf st) (.gives x) (viewOf (parse E P d n s i f st).2) := by
  obtain ⟨h1, h2⟩ := answers_evalD (P := P) hn hd d s i f st
  rw [h2]
  exact (sound_evalD d s i f (viewOf st)).1 x _ (Prod.ext (h1.symm.trans h) rfl)

theorem runs_of_exc {n d : Nat} {s : Str} {i f : Bool} {st : State δ ω} {e : PyExc} (hn : E.cfg.sectionNames.length + 3 ≤ n)
    (hd : E.cfg.hasSection E.defaultName = true → ∀ s, Reaches E E.defaultName s → s = E.defaultName)
    (h : (parse E P d n s i f st).1 = .exc e) :
    Runs E P (.parse s i f) (viewOf st) (.raises e) (viewOf (parse E P d n s i f st).2) := by
  obtain ⟨h1, h2⟩ := answers_evalD (P := P) hn hd d s i f st
  rw [h2]
  exact (sound_evalD d s i f (viewOf st)).2 e _ (Prod.ext (h1.symm.trans h) rfl)

end CPE.Re
