import Verif.Proofs.Access
import Verif.Props.Settings
/-
C05 (distinct keys), C07, C08, C09, C29, C30, C35, C36: lazy access to the enhanced data.
-/
namespace CPE.Props
open Spec
variable {δ ω : Type} {E : Env δ ω} {n m : Nat} {s : Str} {o o' : Obj δ ω}

/-! ### C05: the hypothesis of `C05_reparse_same_data` holds after every history -/

theorem nodup_set {ν : Type} {d : Dict Str ν} (h : (Dict.keys d).Nodup) (k : Str) (v : ν) : (Dict.keys (Dict.set d k v)).Nodup := by
  rw [Dict.keys_set]
  split
  · exact h
  · rename_i hk
    rw [List.nodup_append]
    refine ⟨h, by simp, ?_⟩
    intro a ha b hb
    have : b = k := by simpa using hb
    subst this
    exact fun e => hk (e ▸ ha)

theorem keysDistinct_put {D : Dict Str Options} (h : ∀ s d, Dict.get? D s = some d → (Dict.keys d).Nodup) (t : Str) {d : Options}
    (hd : (Dict.keys d).Nodup) : ∀ s d', Dict.get? (Dict.set D t d) s = some d' → (Dict.keys d').Nodup := by
  intro s d' hs
  rw [Dict.get?_set] at hs
  split at hs
  · cases hs; exact hd
  · exact h s d' hs

theorem stepRel_distinct (E : Env δ ω) (root : Str) :
    StepRel E root (fun w w' => (∀ s d, Dict.get? w.data s = some d → (Dict.keys d).Nodup) →
      ∀ s d, Dict.get? w'.data s = some d → (Dict.keys d).Nodup) where
  refl _ := id
  trans h h' := fun x => h' (h x)
  log l := by
    intro w h s d
    have : (logAdd E l w).2.data = w.data := by unfold logAdd M.modify; dsimp only; split <;> rfl
    rw [this]; exact h s d
  event ev e := fun w h => h
  body hd c := by
    intro w h
    rw [runHandlerBody_world]; exact h
  add t _ := by
    intro w h s d
    rw [addSection_apply]
    dsimp only
    rw [get?_addSection]
    split
    · intro hx; cases hx; simp [Dict.keys]
    · exact h s d
  store k v := by
    intro w h
    rw [dataSet_apply]
    refine keysDistinct_put h root (nodup_set ?_ k v)
    cases hx : Dict.get? w.data root with
    | none => simp [Dict.keys]
    | some d => exact h root d hx
  proc _ _ := id

theorem keysDistinct_inv (E : Env δ ω) (n : Nat) : ObjInv E n (fun _ _ _ => True) (KeysDistinct (δ := δ) (ω := ω)) where
  full _ := trivial
  parse s i f o _ h := by
    by_cases hs : s = []
    · subst hs; exact h
    · rw [parseSection_apply E n hs]
      have := (stepRel_distinct E s).parseR n s i f { toCore := startCore E s o.toCore, processed := [], log := [] } h
      generalize parseR E n s s i f _ = x at this
      obtain ⟨a, w⟩ := x
      cases a <;> exact this
  mark s o h := h
  event ev e o h := h
  write s d o h hd := keysDistinct_put h s hd
  put s k v o h := by
    refine keysDistinct_put h s (nodup_set ?_ k v)
    cases hx : Dict.get? o.data s with
    | none => simp [Dict.keys]
    | some d => exact h s d hx

/-- C05: after any history of operations on a new object all stored dicts have distinct keys, so
`C05_reparse_same_data` applies. -/
theorem C05_keys_stay_distinct (E : Env δ ω) (n : Nat) (ops : List EdOp) (w : ω) :
    KeysDistinct (EdOp.run E n ops (Obj.fresh E w)) :=
  (keysDistinct_inv E n).run ops (fun _ _ _ _ => trivial) _ (fun s d h => by cases h)

/-- C05 over histories: after any history, parsing a section twice with success leaves the data of the first
of the two parses. -/
theorem C05_history (E : Env δ ω) (n : Nat) (ops : List EdOp) (w : ω) {i f f' : Bool} {o1 o2 : Obj δ ω} {r1 r2 : δ}
    (h1 : parseSection E n s i f (EdOp.run E n ops (Obj.fresh E w)) = (.ok r1, o1))
    (h2 : parseSection E n s i f' o1 = (.ok r2, o2)) : o2.data = o1.data :=
  C05_reparse_same_data (C05_keys_stay_distinct E n ops w) h1 h2

/-! ### C07 -/

/-- A history that leaves `s` alone or asks for it with success: no direct edit of `s` (`set`, `add_section` with
force, a parse without DEFAULT), and every operation that may parse `s` succeeds. Operations on other sections may do
anything, fail included. -/
def CleanFor (E : Env δ ω) (n : Nat) (s : Str) : List EdOp → Obj δ ω → Prop
  | [], _ => True
  | op :: ops, o => op.edits s = false ∧ (op.mayParse s = true → ∃ v, (op.exec E n o).1 = .ok v) ∧
      CleanFor E n s ops (op.exec E n o).2

theorem settled_run (ops : List EdOp) (o : Obj δ ω) (ho : Settled E s o) (hc : CleanFor E n s ops o) :
    Settled E s (EdOp.run E n ops o) := by
  induction ops generalizing o with
  | nil => exact ho
  | cons op ops ih => exact ih _ (KeepsSettled.exec n op hc.1 o ho hc.2.1) hc.2.2

theorem settled_fresh (E : Env δ ω) (s : Str) (w : ω) : Settled E s (Obj.fresh E w) :=
  ⟨fun h => by simp [Obj.fresh] at h, fun _ => .inl rfl⟩

/-- The right answer to an access to `s`, if its resolved dict is `d`. -/
def rightAnswer (d : Options) : EdOp → Option (EdVal δ)
  | .get _ | .options _ | .getItem _ | .items _ => some (.opts d)
  | .hasOption _ k => some (.bool (Dict.get? d k).isSome)
  | .hasSection _ => some (.bool true)
  | .getOption _ k => (Dict.get? d k).map .str
  | _ => none

/-- The accesses to section `s` that give an answer about it. -/
def IsAccess (s : Str) : EdOp → Prop
  | .get t | .options t | .getItem t | .items t | .hasOption t _ | .hasSection t | .getOption t _ => t = s
  | _ => False

theorem parseOwner_settled (ho : Settled E s o) {u : Unit} (h : parseOwner E n s false o = (.ok u, o')) :
    ∃ d, Dict.get? o'.data s = some d ∧ Resolved E s d := by
  have h1 := KeepsSettled.parseOwner (E := E) (s := s) (strict := true) n s false (fun _ => rfl) o ho (fun _ => ⟨u, by rw [h]⟩)
  have h2 := parseOwner_marks E n s false o
  rw [h] at h1 h2
  exact h1.1 h2

/-- The answer to an access in a state where `s` is settled. -/
theorem settled_answer (ho : Settled E s o) (hf : E.cfg.hasSection s = true) (op : EdOp) (ha : IsAccess s op) {v : EdVal δ}
    (h : (op.exec E m o).1 = .ok v) : ∃ d, Resolved E s d ∧ rightAnswer d op = some v := by
  have key : ∀ {α : Type} {r : α} (g : Obj δ ω → Out α), (match parseOwner E m s false o with
      | (.ok _, o') => (g o', o')
      | (.exc e, o') => (.exc e, o')
      | (.diverge, o') => (.diverge, o')).1 = .ok r → ∃ o' d, Dict.get? o'.data s = some d ∧ Resolved E s d ∧ g o' = .ok r := by
    intro α r g hg
    cases hp : parseOwner E m s false o with
    | mk x o' =>
      rw [hp] at hg
      cases x with
      | ok u =>
        obtain ⟨d, h1, h2⟩ := parseOwner_settled ho hp
        exact ⟨o', d, h1, h2, hg⟩
      | exc e => cases hg
      | diverge => cases hg
  have opts : ∀ {d : Options}, (edGet E m s o).1 = .ok d → Resolved E s d := by
    intro d hd
    rw [edGet_apply] at hd
    obtain ⟨o', d', h1, h2, h3⟩ := key (lookup s) hd
    simp only [lookup, h1] at h3
    cases h3; exact h2
  have unwrap : ∀ {α : Type} {x : M (Obj δ ω) α} {g : α → EdVal δ}, ((x >>= fun r => pure (g r)) o).1 = .ok v →
      ∃ r, (x o).1 = .ok r ∧ g r = v := by
    intro α x g hx
    rw [M.bind_def] at hx
    cases hm : x o with
    | mk a o' =>
      rw [hm] at hx
      cases a with
      | ok r => exact ⟨r, rfl, by cases hx; rfl⟩
      | exc e => cases hx
      | diverge => cases hx
  cases op with
  | get t =>
    obtain ⟨d, h1, h2⟩ := unwrap h
    cases ha
    exact ⟨d, opts h1, by rw [← h2]; rfl⟩
  | options t =>
    obtain ⟨d, h1, h2⟩ := unwrap h
    cases ha
    rw [edOptions_apply hf] at h1
    exact ⟨d, opts h1, by rw [← h2]; rfl⟩
  | getItem t =>
    obtain ⟨d, h1, h2⟩ := unwrap h
    cases ha
    change (edOptions E m s o).1 = _ at h1
    rw [edOptions_apply hf] at h1
    exact ⟨d, opts h1, by rw [← h2]; rfl⟩
  | items t =>
    obtain ⟨d, h1, h2⟩ := unwrap h
    cases ha
    rw [edOptions_apply hf] at h1
    exact ⟨d, opts h1, by rw [← h2]; rfl⟩
  | hasOption t k =>
    obtain ⟨b, h1, h2⟩ := unwrap h
    cases ha
    rw [edHasOption_apply] at h1
    obtain ⟨o', d, g1, g2, g3⟩ := key (fun o' => .ok (match Dict.get? o'.data s with | none => false | some d => Dict.mem d k)) h1
    rw [g1] at g3
    cases g3
    exact ⟨d, g2, by rw [← h2]; rfl⟩
  | hasSection t =>
    obtain ⟨b, h1, h2⟩ := unwrap h
    cases ha
    rw [edHasSection_apply hf] at h1
    obtain ⟨o', d, g1, g2, g3⟩ := key (fun o' => .ok (Dict.mem o'.data s)) h1
    simp only [Dict.mem, g1] at g3
    cases g3
    exact ⟨d, g2, by rw [← h2]; rfl⟩
  | getOption t k =>
    obtain ⟨x, h1, h2⟩ := unwrap h
    cases ha
    rw [edGetOption_apply] at h1
    obtain ⟨o', d, g1, g2, g3⟩ := key (fun o' => match Dict.get? o'.data s with
        | none => .exc .keyError
        | some d => match Dict.get? d k with
          | none => .exc .keyError
          | some v => .ok v) h1
    simp only [g1] at g3
    cases hk : Dict.get? d k with
    | none => rw [hk] at g3; cases g3
    | some y =>
      rw [hk] at g3
      cases g3
      refine ⟨d, g2, ?_⟩
      rw [← h2]
      simp [rightAnswer, hk]
  | parseSection | parseAll | keys | len | sections | hasSectionNoParse | itemsAll | assertSection | assertFile | addSection | set =>
    cases ha

/-- C07: after any clean history, if an access to a section of the file succeeds its answer is the one determined by
the file alone: that of the resolved dict. -/
theorem C07_answer_is_resolved (ops : List EdOp) (w : ω) (hc : CleanFor E n s ops (Obj.fresh E w))
    (hf : E.cfg.hasSection s = true) (op : EdOp) (ha : IsAccess s op) {v : EdVal δ}
    (h : (op.exec E m (EdOp.run E n ops (Obj.fresh E w))).1 = .ok v) :
    ∃ d, Resolved E s d ∧ rightAnswer d op = some v := by
  have ho := settled_run ops _ (settled_fresh E s w) hc
  exact settled_answer ho hf op ha h

/-- C07: hence a fresh object, if it answers, answers the same. -/
theorem C07_same_as_fresh (ops : List EdOp) (w w' : ω) (hc : CleanFor E n s ops (Obj.fresh E w))
    (hf : E.cfg.hasSection s = true) (op : EdOp) (ha : IsAccess s op) {v v' : EdVal δ} {m' : Nat}
    (h : (op.exec E m (EdOp.run E n ops (Obj.fresh E w))).1 = .ok v)
    (h' : (op.exec E m' (Obj.fresh E w')).1 = .ok v') : v = v' := by
  obtain ⟨d, h1, h2⟩ := C07_answer_is_resolved ops w hc hf op ha h
  obtain ⟨d', h1', h2'⟩ := C07_answer_is_resolved (n := m') [] w' trivial hf op ha h'
  rw [resolved_unique h1 h1', h2'] at h2
  exact (Option.some.inj h2).symm

/-- C07: `items()` (all sections at once) gives every section of the file, clean in the history, its resolved dict. -/
theorem C07_items_all (ops : List EdOp) (w : ω) (hc : CleanFor E n s ops (Obj.fresh E w)) (hf : E.cfg.hasSection s = true)
    {D : Dict Str Options} (h : (EdOp.exec E m .itemsAll (EdOp.run E n ops (Obj.fresh E w))).1 = .ok (.all D)) :
    ∃ d, Dict.get? D s = some d ∧ Resolved E s d := by
  have ho := settled_run ops _ (settled_fresh E s w) hc
  generalize EdOp.run E n ops (Obj.fresh E w) = o at ho h
  have hex : EdOp.exec E m .itemsAll = (edItemsAll E m >>= fun r => pure (.all r)) := rfl
  have hit : edItemsAll E m = (M.forEach (edKeys E) (fun s => parseOwner E m s false) >>= fun _ => M.read >>= fun o => pure o.data) := rfl
  rw [hex, M.bind_def, hit, M.bind_def] at h
  have hloop := KeepsSettled.forEach (E := E) (s := s) (strict := true) (edKeys E)
    (fun t => KeepsSettled.parseOwner m t false (fun _ => rfl)) o ho
  have hmark : ∀ (l : List Str) (o o' : Obj δ ω) (u : Unit), M.forEach l (fun s => parseOwner E m s false) o = (.ok u, o') →
      ∀ t, (t ∈ l ∨ t ∈ o.checked) → t ∈ o'.checked := by
    intro l
    induction l with
    | nil => intro o o' u h t ht; cases h; simpa using ht
    | cons x l ih =>
      intro o o' u h t ht
      rw [M.forEach_cons, M.bind_def] at h
      cases hp : parseOwner E m x false o with
      | mk a o1 =>
        rw [hp] at h
        cases a with
        | ok u1 =>
          have hx := parseOwner_marks E m x false o
          rw [hp] at hx
          refine ih o1 o' u h t ?_
          by_cases htx : t = x
          · subst htx; exact .inr hx
          · rcases ht with ht | ht
            · rcases List.mem_cons.mp ht with ht | ht
              · exact absurd ht htx
              · exact .inl ht
            · refine .inr ?_
              have hm : ∀ t ∈ o.checked, t ∈ (parseOwner E m x false o).2.checked := by
                intro t ht
                rw [parseOwner_apply]
                split
                · have hm : t ∈ (parseSection E m x true true { o with checked := setAdd o.checked x }).2.checked := by
                    by_cases hs : x = []
                    · subst hs
                      rw [parseSection_nil]
                      exact (mem_setAdd _ _ _).mpr (.inr ht)
                    · rw [parseSection_checked E m hs]
                      exact (mem_setAdd _ _ _).mpr (.inr ((mem_setAdd _ _ _).mpr (.inr ht)))
                  generalize parseSection E m x true true _ = y at hm ⊢
                  obtain ⟨r', o'⟩ := y
                  cases r' <;> exact hm
                · exact ht
              have := hm t ht
              rw [hp] at this
              exact this
        | exc e => cases h
        | diverge => cases h
  cases hl : M.forEach (edKeys E) (fun s => parseOwner E m s false) o with
  | mk x o' =>
    rw [hl] at h hloop
    cases x with
    | ok u =>
      have hD : o'.data = D := by cases h; rfl
      subst hD
      have hin : s ∈ edKeys E := (Dict.mem_iff _ _).mp hf
      exact (hloop (fun _ => ⟨u, rfl⟩)).1 (hmark _ _ _ _ hl s (.inl hin))
    | exc e => cases h
    | diverge => cases h

/-- A history on the example file: parse A, look at B, fail on D, force a parse of A, write into H. It is clean for A
and for B; D failed, H was edited. -/
def hist : List EdOp :=
  [.parseSection py!"A" true true, .hasOption py!"B" py!"key 2", .get py!"D", .sections .no, .options py!"A",
   .set py!"H" py!"x" none]

example : CleanFor Example.env 12 py!"A" hist Example.o0 ∧ CleanFor Example.env 12 py!"B" hist Example.o0 := by
  refine ⟨⟨rfl, fun _ => ⟨_, rfl⟩, rfl, (fun h => by cases h), rfl, (fun h => by cases h), rfl, (fun h => by cases h),
      rfl, fun _ => ⟨_, rfl⟩, rfl, (fun h => by cases h), trivial⟩,
    ⟨rfl, (fun h => by cases h), rfl, fun _ => ⟨_, rfl⟩, rfl, (fun h => by cases h), rfl, (fun h => by cases h),
      rfl, (fun h => by cases h), rfl, (fun h => by cases h), trivial⟩⟩

/-- After it the answers about A and B are those of a fresh object. -/
example : (EdOp.exec Example.env 12 (.getOption py!"A" py!"key 1") (EdOp.run Example.env 12 hist Example.o0)).1 =
      .ok (.str (some py!"v")) ∧
    (EdOp.exec Example.env 12 (.getOption py!"A" py!"key 1") Example.o0).1 = .ok (.str (some py!"v")) ∧
    (EdOp.exec Example.env 12 (.hasSection py!"B") (EdOp.run Example.env 12 hist Example.o0)).1 = .ok (.bool true) :=
  ⟨rfl, rfl, rfl⟩

/-! ### C08 -/

/-- The answer of an access when the stored dict of the section is `x` (`none`: no dict stored). -/
def storedAnswer (x : Option Options) : EdOp → Out (EdVal δ)
  | .get _ | .options _ | .getItem _ | .items _ => match x with
    | some d => .ok (.opts d)
    | none => .exc .keyError
  | .hasOption _ k => .ok (.bool ((x.getD []).any fun kv => kv.1 == k))
  | .hasSection _ => .ok (.bool x.isSome)
  | .getOption _ k => match x.bind fun d => Dict.get? d k with
    | some v => .ok (.str v)
    | none => .exc .keyError
  | _ => .diverge

theorem mem_eq_any (d : Options) (k : Str) : Dict.mem d k = d.any fun kv => kv.1 == k := by
  induction d with
  | nil => rfl
  | cons kv d ih =>
    obtain ⟨a, b⟩ := kv
    simp only [Dict.mem, Dict.get?, List.any_cons] at ih ⊢
    by_cases h : a = k
    · simp [h]
    · simp [h, ih]

/-- Once a section is marked as parsed, accesses only read the stored data. -/
theorem access_checked (hs : s ∈ o.checked) (op : EdOp) (ha : IsAccess s op) :
    op.exec E m o = (storedAnswer (Dict.get? o.data s) op, o) := by
  have hopt : ∀ {x : M (Obj δ ω) Options}, x o = (lookup s o, o) → (x >>= fun r => pure (EdVal.opts (δ := δ) r)) o =
      (match Dict.get? o.data s with | some d => .ok (.opts d) | none => .exc .keyError, o) := by
    intro x hx
    rw [M.bind_def, hx]
    unfold lookup
    cases Dict.get? o.data s <;> rfl
  cases op with
  | get t => cases ha; exact hopt (edGet_checked hs)
  | options t => cases ha; exact hopt (edOptions_checked hs)
  | getItem t => cases ha; exact hopt (edOptions_checked hs)
  | items t => cases ha; exact hopt (edOptions_checked hs)
  | hasOption t k =>
    cases ha
    change (edHasOption E m s k >>= fun r => pure (EdVal.bool r)) o = _
    rw [M.bind_ok (edHasOption_checked hs k)]
    cases hx : Dict.get? o.data s with
    | none => rfl
    | some d => simp only [storedAnswer, Option.getD_some, mem_eq_any]; rfl
  | hasSection t =>
    cases ha
    change (edHasSection E m s >>= fun r => pure (EdVal.bool r)) o = _
    rw [M.bind_ok (edHasSection_checked hs)]
    rfl
  | getOption t k =>
    cases ha
    change (edGetOption E m s k >>= fun r => pure (EdVal.str r)) o = _
    rw [M.bind_def, edGetOption_checked hs k]
    cases hx : Dict.get? o.data s with
    | none => rfl
    | some d =>
      simp only [storedAnswer, Option.bind_some]
      cases Dict.get? d k <;> rfl
  | parseSection | parseAll | keys | len | sections | hasSectionNoParse | itemsAll | assertSection | assertFile | addSection | set =>
    cases ha

/-- An access parses the section, or finds it marked: either way it ends marked. -/
theorem access_marks (hf : E.cfg.hasSection s = true) (op : EdOp) (ha : IsAccess s op) (o : Obj δ ω) :
    (op.exec E n o).2 = (parseOwner E n s false o).2 := by
  have fin : ∀ {α β : Type} (g : α → β) (x : M (Obj δ ω) α) (y : Obj δ ω → Out α),
      (x o = match parseOwner E n s false o with
        | (.ok _, o') => (y o', o')
        | (.exc e, o') => (.exc e, o')
        | (.diverge, o') => (.diverge, o')) → ((x >>= fun r => pure (g r)) o).2 = (parseOwner E n s false o).2 := by
    intro α β g x y hx
    rw [M.bind_def, hx]
    generalize parseOwner E n s false o = z
    obtain ⟨a, o'⟩ := z
    cases a with
    | ok u => dsimp only; cases y o' <;> rfl
    | exc e => rfl
    | diverge => rfl
  cases op with
  | get t => cases ha; exact fin _ _ _ (edGet_apply E n s o)
  | options t => cases ha; exact fin _ _ _ ((edOptions_apply hf o).trans (edGet_apply E n s o))
  | getItem t => cases ha; exact fin _ (edOptions E n s) _ ((edOptions_apply hf o).trans (edGet_apply E n s o))
  | items t => cases ha; exact fin _ _ _ ((edOptions_apply hf o).trans (edGet_apply E n s o))
  | hasOption t k => cases ha; exact fin _ _ (fun o' => .ok _) (edHasOption_apply E n s k o)
  | hasSection t => cases ha; exact fin _ _ (fun o' => .ok _) (edHasSection_apply hf o)
  | getOption t k => cases ha; exact fin _ _ _ (edGetOption_apply E n s k o)
  | parseSection | parseAll | keys | len | sections | hasSectionNoParse | itemsAll | assertSection | assertFile | addSection | set =>
    cases ha

/-- C08: after an access to a section of the file, failed or not, no later access parses it again: it changes
nothing and answers from the stored dict. -/
theorem C08_parsed_once (hf : E.cfg.hasSection s = true) (op : EdOp) (ha : IsAccess s op) (o : Obj δ ω)
    (op2 : EdOp) (ha2 : IsAccess s op2) :
    op2.exec E m (op.exec E n o).2 = (storedAnswer (Dict.get? (op.exec E n o).2.data s) op2, (op.exec E n o).2) := by
  refine access_checked ?_ op2 ha2
  rw [access_marks hf op ha]
  exact parseOwner_marks E n s false o

/-- C08: what is stored after a first access that failed is the merge of the options met before the failure: the
unrolled parse splits into a part `a` that was processed, the event that raised, and a part never looked at. If not
even the section was entered and nothing was met, what was stored before (nothing, or an empty dict) stays. -/
theorem C08_failed_access_stores_prefix (hs : s ≠ []) (hf : E.cfg.hasSection s = true)
    (hd : E.cfg.hasSection E.defaultName = true → s = E.defaultName ∨ ¬ Reaches E E.defaultName s)
    (hn : E.cfg.sectionNames.length + 3 ≤ n) (hc : s ∉ o.checked)
    (hfresh : Dict.get? o.data s = none ∨ Dict.get? o.data s = some [])
    {evs : List (Ev δ ω)} (ht : ParseTrace E s true true evs)
    {op : EdOp} (ha : IsAccess s op) {e : PyExc} (h : (op.exec E n o).1 = .exc e)
    (hk : ∀ k, op ≠ .getOption s k) :
    ∃ a ev b, evs = a ++ ev :: b ∧
      (∃ c1 c2, replay E s a { o.toCore with shared := E.emptyShared, checked := setAdd o.checked s } = (none, c1) ∧
        evStep E s ev c1 = (some e, c2)) ∧
      (stores a = [] ∧ s ∉ visits a → Dict.get? (op.exec E n o).2.data s = Dict.get? o.data s) ∧
      (¬ (stores a = [] ∧ s ∉ visits a) → ∃ d, Dict.get? (op.exec E n o).2.data s = some d ∧ LastWins (stores a) d) := by
  obtain ⟨h1, h2, -⟩ := parseSection_replay (E := E) (n := n) (o := o) hs ht hn (fun _ => hd)
  have hp := parseOwner_first (E := E) (n := n) (o := o) hs false (.inl hc)
  have hexc : (parseSection E n s true true o).1 = .exc e := by
    have fin : ∀ {α β : Type} (g : α → β) (x : M (Obj δ ω) α) (y : Obj δ ω → Out α),
        (x o = match parseOwner E n s false o with
          | (.ok _, o') => (y o', o')
          | (.exc e, o') => (.exc e, o')
          | (.diverge, o') => (.diverge, o')) → ((x >>= fun r => pure (g r)) o).1 = .exc e →
        (∀ o' r, parseSection E n s true true o = (.ok r, o') → ∃ z, y o' = .ok z) →
        (parseSection E n s true true o).1 = .exc e := by
      intro α β g x y hx hy hz
      rw [M.bind_def, hx, hp] at hy
      generalize parseSection E n s true true o = z at hy hz ⊢
      obtain ⟨r, o'⟩ := z
      cases r with
      | ok r =>
        obtain ⟨z, hz⟩ := hz o' r rfl
        simp only [hz] at hy
        cases hy
      | exc e' => cases hy; rfl
      | diverge => cases hy
    have hlook : ∀ o' r, parseSection E n s true true o = (.ok r, o') → ∃ z, lookup s o' = .ok z := by
      intro o' r hr
      exact ⟨_, by rw [lookup, parseSection_ok_data hr ht]⟩
    cases op with
    | get t => cases ha; exact fin _ _ _ (edGet_apply E n s o) h hlook
    | options t => cases ha; exact fin _ _ _ ((edOptions_apply hf o).trans (edGet_apply E n s o)) h hlook
    | getItem t => cases ha; exact fin _ (edOptions E n s) _ ((edOptions_apply hf o).trans (edGet_apply E n s o)) h hlook
    | items t => cases ha; exact fin _ _ _ ((edOptions_apply hf o).trans (edGet_apply E n s o)) h hlook
    | hasOption t k => cases ha; exact fin _ _ (fun o' => .ok _) (edHasOption_apply E n s k o) h (fun o' r _ => ⟨_, rfl⟩)
    | hasSection t => cases ha; exact fin _ _ (fun o' => .ok _) (edHasSection_apply hf o) h (fun o' r _ => ⟨_, rfl⟩)
    | getOption t k => cases ha; exact absurd rfl (hk k)
    | parseSection | parseAll | keys | len | sections | hasSectionNoParse | itemsAll | assertSection | assertFile | addSection | set =>
      cases ha
  have hdata : (op.exec E n o).2.data = (replay E s evs (startCore E s o.toCore)).2.data := by
    rw [access_marks hf op ha, hp, ← h2]
    generalize parseSection E n s true true o = z
    obtain ⟨r, o'⟩ := z
    cases r <;> rfl
  rw [hexc] at h1
  cases hr : replay E s evs (startCore E s o.toCore) with
  | mk x c' =>
    rw [hr] at h1 hdata
    cases x with
    | none => cases h1
    | some e' =>
      have : e' = e := by cases h1; rfl
      subst this
      obtain ⟨a, ev, b, c1, hev, ha1, hstep⟩ := replay_split E s evs _ c' e' hr
      refine ⟨a, ev, b, hev, ⟨c1, c', ha1, hstep⟩, ?_⟩
      have hroot := replay_root E s a _ c1 ha1
      have hsame : c'.data = c1.data := by
        have hev := evStep_data E s ev c1
        rw [hstep] at hev
        rw [hev]
        cases ev with
        | visit t => simp [evStep] at hstep
        | store k v => simp [evStep] at hstep
        | _ => rfl
      have hst : (startCore E s o.toCore).data = o.data := rfl
      rw [hdata, hsame, hroot, hst]
      refine ⟨fun hcase => if_pos hcase, fun hcase => ⟨_, if_neg hcase, ?_⟩⟩
      rw [lastWins_iff]
      rcases hfresh with hx | hx <;> rw [hx] <;> rfl

/-- Section D of the example fails on `use MISSING`: the first access raises, the next ones answer from what was met
before. -/
example : (EdOp.exec Example.env 12 (.get py!"D") Example.o0).1 = .exc .keyError ∧
    (EdOp.exec Example.env 12 (.getItem py!"D") (EdOp.exec Example.env 12 (.get py!"D") Example.o0).2).1 =
      .ok (.opts [(py!"base", some py!"0"), (py!"key 1", some py!"dflt"), (py!"key 4", some py!"4")]) ∧
    (EdOp.exec Example.env 12 (.hasOption py!"D" py!"key 5") (EdOp.exec Example.env 12 (.get py!"D") Example.o0).2).1 =
      .ok (.bool false) := ⟨rfl, rfl, rfl⟩

/-! ### C09 -/

/-- C09: for a name that is not a section of the file `has_section` is whether something is stored under that name; it
never parses and never changes anything. -/
theorem C09_has_section_missing (h : E.cfg.hasSection s = false) (o : Obj δ ω) :
    EdOp.exec E n (.hasSection s) o = (.ok (.bool (Dict.get? o.data s).isSome), o) := by
  change (edHasSection E n s >>= fun r => pure (EdVal.bool r)) o = _
  rw [M.bind_ok (edHasSection_missing h)]
  rfl

/-- C09: `options`, `[]` and `items` of such a name only look at what is stored. -/
theorem C09_options_missing (h : E.cfg.hasSection s = false) (o : Obj δ ω) {op : EdOp}
    (hop : op = .options s ∨ op = .getItem s ∨ op = .items s) :
    op.exec E n o = (match Dict.get? o.data s with | some d => .ok (.opts d) | none => .exc .keyError, o) := by
  have : (edOptions E n s >>= fun r => pure (EdVal.opts (δ := δ) r)) o =
      (match Dict.get? o.data s with | some d => .ok (.opts d) | none => .exc .keyError, o) := by
    rw [M.bind_def, edOptions_missing h]
    unfold lookup
    cases Dict.get? o.data s <;> rfl
  rcases hop with rfl | rfl | rfl <;> exact this

/-- C09: the first `get` or `has_option` of a missing section never returns. -/
theorem C09_first_access_raises (h : E.cfg.optionNames s = none) (hc : s ∉ o.checked) {op : EdOp}
    (hop : op = .get s ∨ ∃ k, op = .hasOption s k ∨ op = .getOption s k) (v : EdVal δ) : (op.exec E n o).1 ≠ .ok v := by
  have hpo : ∀ u, (parseOwner E n s false o).1 ≠ .ok u := by
    intro u hu
    by_cases hs : s = []
    · subst hs
      rw [parseOwner_apply, if_pos (.inl hc), parseSection_nil] at hu
      cases hu
    · have := C15_missing_never_succeeds (E := E) (s := s) (t := s) (.inl (.refl s)) h n true o
      rw [parseOwner_first hs false (.inl hc)] at hu
      generalize parseSection E n s true true o = z at this hu
      obtain ⟨r, o'⟩ := z
      cases r with
      | ok r => exact this r rfl
      | exc e => cases hu
      | diverge => cases hu
  have fin : ∀ {α : Type} (g : α → EdVal δ) (x : M (Obj δ ω) α) (y : Obj δ ω → Out α),
      (x o = match parseOwner E n s false o with
        | (.ok _, o') => (y o', o')
        | (.exc e, o') => (.exc e, o')
        | (.diverge, o') => (.diverge, o')) → ((x >>= fun r => pure (g r)) o).1 ≠ .ok v := by
    intro α g x y hx
    rw [M.bind_def, hx]
    generalize parseOwner E n s false o = z at hpo
    obtain ⟨a, o'⟩ := z
    cases a with
    | ok u => exact absurd rfl (hpo u)
    | exc e => intro h; cases h
    | diverge => intro h; cases h
  rcases hop with rfl | ⟨k, rfl | rfl⟩
  · exact fin _ _ _ (edGet_apply E n s o)
  · exact fin _ _ (fun o' => .ok _) (edHasOption_apply E n s k o)
  · exact fin _ _ _ (edGetOption_apply E n s k o)

/-- C09: in full. A missing section `M` never accessed nor stored before, with `a` the events before `M` is looked up
(`handler_initialize` and the DEFAULT section), none of them raising: the first `get(M)` raises KeyError, and from
then on accesses answer from what DEFAULT left under the name `M`: nothing if DEFAULT has no unhandled option, else
DEFAULT's unhandled options. -/
theorem C09_missing_section (hs : s ≠ []) (h : E.cfg.optionNames s = none) (hc : s ∉ o.checked)
    (h0 : Dict.get? o.data s = none)
    (hd : E.cfg.hasSection E.defaultName = true → ¬ Reaches E E.defaultName s)
    (hn : E.cfg.sectionNames.length + 3 ≤ n)
    {evD : List (Ev δ ω)}
    (hD : if E.cfg.hasSection E.defaultName = true then Unrolls E s (.sec [] E.defaultName) evD else evD = [])
    (hok : (replay E s (.call E.hookInit (hookCall s py!"handler_initialize") :: evD)
      { o.toCore with shared := E.emptyShared, checked := setAdd o.checked s }).1 = none) :
    (EdOp.exec E n (.get s) o).1 = .exc .keyError ∧
    ∃ x, (stores evD = [] → x = none) ∧ (stores evD ≠ [] → ∃ d, x = some d ∧ LastWins (stores evD) d) ∧
      ∀ op, IsAccess s op →
        op.exec E m (EdOp.exec E n (.get s) o).2 = (storedAnswer x op, (EdOp.exec E n (.get s) o).2) := by
  have hu : Unrolls E s (.sec [] s) [.missing s] := .missing h
  have hnd : s ∉ visits evD := by
    split at hD
    · rename_i hdef
      intro hv
      rw [mem_visits] at hv
      have := unrolls_origin hD _ hv
      cases this with
      | visit hr => exact hd hdef hr
      | option _ _ _ hm he =>
        rcases meaning_cases hm with ⟨e, rfl⟩ | ⟨_, _, rfl⟩ | ⟨_, _, rfl⟩ | ⟨_, _, _, rfl⟩ <;> simp at he
    · subst hD; simp [visits]
  have ht : ParseTrace E s true true ([.call E.hookInit (hookCall s py!"handler_initialize")] ++ evD ++ [.missing s] ++
      [.call E.hookFinal (hookCall s py!"handler_finalize")]) := by
    refine ParseTrace.mk (init := true) (fin := true) (fun hx => ?_) (fun hx => ?_) hu
    · rw [if_pos hx.2] at hD; exact hD
    · rw [if_neg (fun hy => hx ⟨rfl, hy⟩)] at hD; exact hD
  obtain ⟨h1, h2, -⟩ := parseSection_replay (E := E) (n := n) (o := o) hs ht hn
    (fun _ hx => .inr (hd hx))
  cases hr : replay E s (.call E.hookInit (hookCall s py!"handler_initialize") :: evD) (startCore E s o.toCore) with
  | mk x c1 =>
    have hx : x = none := by
      have hst : startCore E s o.toCore = { o.toCore with shared := E.emptyShared, checked := setAdd o.checked s } := rfl
      rw [hst] at hr
      rw [hr] at hok; exact hok
    subst hx
    have hall : replay E s ([.call E.hookInit (hookCall s py!"handler_initialize")] ++ evD ++ [.missing s] ++
        [.call E.hookFinal (hookCall s py!"handler_finalize")]) (startCore E s o.toCore) = (some .keyError, c1) := by
      rw [List.append_assoc, List.append_assoc, ← List.append_assoc, replay_append]
      simp only [List.singleton_append, hr]
      rfl
    rw [hall] at h1 h2
    have hps : (parseSection E n s true true o).1 = .exc .keyError := h1
    have hget : EdOp.exec E n (.get s) o = (.exc .keyError, (parseSection E n s true true o).2) := by
      change (edGet E n s >>= fun r => pure (EdVal.opts r)) o = _
      rw [M.bind_def, edGet_apply, parseOwner_first hs false (.inl hc)]
      generalize parseSection E n s true true o = z at hps
      obtain ⟨r, o'⟩ := z
      cases hps
      rfl
    refine ⟨by rw [hget], if stores evD = [] then none else some (writeAll [] (stores evD)), fun hx => if_pos hx,
      fun hx => ⟨_, if_neg hx, lastWins_writeAll _⟩, fun op ha => ?_⟩
    rw [hget]
    have hchk : s ∈ (parseSection E n s true true o).2.checked := by
      rw [parseSection_checked E n hs]
      exact (mem_setAdd _ _ _).mpr (.inl rfl)
    rw [access_checked hchk op ha]
    congr 2
    have hdat : (parseSection E n s true true o).2.data = c1.data := congrArg Core.data h2
    have hroot := replay_root E s _ _ c1 hr
    have hst : (startCore E s o.toCore).data = o.data := rfl
    rw [hst, h0] at hroot
    rw [hdat, hroot]
    have hv : s ∉ visits (.call E.hookInit (hookCall s py!"handler_initialize") :: evD) := hnd
    by_cases hsD : stores evD = []
    · rw [if_pos ⟨hsD, hv⟩, if_pos hsD]
    · rw [if_neg (fun hx => hsD hx.1), if_neg hsD]
      rfl

/-- In the example file the section MISSING does not exist: the first `get` raises KeyError, the second returns the
options of DEFAULT. In the same file without its DEFAULT section the second raises again. -/
example : Example.env.cfg.optionNames py!"MISSING" = none ∧
    (EdOp.exec Example.env 12 (.hasSection py!"MISSING") Example.o0).1 = .ok (.bool false) ∧
    (EdOp.exec Example.env 12 (.get py!"MISSING") Example.o0).1 = .exc .keyError ∧
    (EdOp.exec Example.env 12 (.get py!"MISSING") (EdOp.exec Example.env 12 (.get py!"MISSING") Example.o0).2).1 =
      .ok (.opts [(py!"base", some py!"0"), (py!"key 1", some py!"dflt")]) := ⟨rfl, rfl, rfl, rfl⟩

/-- The example without DEFAULT. -/
def envNoDefault : Env (List Str) Unit := { Example.env with cfg := { sections := Example.cfg.sections.drop 1 } }

example : (EdOp.exec envNoDefault 12 (.get py!"MISSING") Example.o0).1 = .exc .keyError ∧
    (EdOp.exec envNoDefault 12 (.get py!"MISSING") (EdOp.exec envNoDefault 12 (.get py!"MISSING") Example.o0).2).1 =
      .exc .keyError ∧
    (EdOp.exec envNoDefault 12 (.hasOption py!"MISSING" py!"base")
      (EdOp.exec envNoDefault 12 (.get py!"MISSING") Example.o0).2).1 = .ok (.bool false) := ⟨rfl, rfl, rfl⟩

/-! ### C29 -/

/-- Some option in the unrolling of `s` (or of DEFAULT) is unhandled. -/
def Unhandled (E : Env δ ω) (s k : Str) : Prop := ∃ t, Relevant E s t ∧ HasUnhandled E t k

theorem resolved_nil_iff {d : Options} (h : Resolved E s d) : d = [] ↔ ∀ k, ¬ Unhandled E s k := by
  constructor
  · rintro rfl k hk
    have := (C02_keys_are_closure h k).mpr hk
    cases this
  · intro hn
    cases d with
    | nil => rfl
    | cons kv d => exact absurd ((C02_keys_are_closure h kv.1).mp (by simp [Dict.keys])) (hn kv.1)

theorem unhandled_of_ne_nil {d : Options} (h : Resolved E s d) (hne : d ≠ []) : ∃ k, Unhandled E s k := by
  cases d with
  | nil => exact absurd rfl hne
  | cons kv d => exact ⟨kv.1, (C02_keys_are_closure h kv.1).mp (by simp [Dict.keys])⟩

theorem rstrip_keeps (x : Str) (c : Char) (hc : isSpace c = false) (y : Str) : ∃ z, rstrip (x ++ c :: y) = x ++ c :: z := by
  unfold rstrip rstripBy
  have hrev : (x ++ c :: y).reverse = y.reverse ++ c :: x.reverse := by simp
  rw [hrev]
  have : ∀ l : Str, ∃ z, List.dropWhile isSpace (l ++ c :: x.reverse) = z ++ c :: x.reverse := by
    intro l
    induction l with
    | nil => exact ⟨[], by simp [hc]⟩
    | cons a l ih =>
      by_cases ha : isSpace a = true
      · obtain ⟨z, hz⟩ := ih
        exact ⟨z, by simpa [List.dropWhile, ha] using hz⟩
      · exact ⟨a :: l, by simp [ha]⟩
  obtain ⟨z, hz⟩ := this y.reverse
  rw [hz]
  exact ⟨z.reverse, by simp⟩

theorem bullet_infix {k : Str} {keys : List Str} (h : k ∈ keys) :
    ∃ x y, bulletList keys = x ++ py!"|- '" ++ k ++ py!"'\n" ++ y := by
  induction keys with
  | nil => cases h
  | cons a keys ih =>
    rcases List.mem_cons.mp h with rfl | h
    · exact ⟨[], bulletList keys, by simp [bulletList]⟩
    · obtain ⟨x, y, hxy⟩ := ih h
      refine ⟨py!"|- '" ++ a ++ py!"'\n" ++ x, y, ?_⟩
      have : bulletList (a :: keys) = py!"|- '" ++ a ++ py!"'\n" ++ bulletList keys := by simp [bulletList]
      rw [this, hxy]
      simp only [List.append_assoc]

/-- `assert_section_all_options_handled` in terms of `get`. -/
theorem assertSection_apply (ops files : List Str) (b : Bool) (o : Obj δ ω) :
    assertSection E n ops files s b o = match edGet E n s o with
      | (.ok d, o') =>
        if d = [] then (.ok none, o')
        else
          let msg := py!"Unhandled option found in section `" ++ s ++ py!"`" ++
            py!" or one of its dependent sections.\n" ++ py!"The following entries are unhandled:\n" ++
            bulletList (Dict.keys d)
          if b = true then
            match liftW (ecEvent E .serious .valueError) o' with
            | (.ok _, o'') => (.ok (some (rstrip (msg ++ knownOperationsMessage ops ++
                py!"\nThis configuration was loaded from the file(s):\n|- " ++ joinStr py!"\n|- " files))), o'')
            | (.exc e, o'') => (.exc e, o'')
            | (.diverge, o'') => (.diverge, o'')
          else (.ok (some (rstrip msg)), o')
      | (.exc e, o') => (.exc e, o')
      | (.diverge, o') => (.diverge, o') := by
  unfold assertSection
  rw [M.bind_def]
  cases hg : edGet E n s o with
  | mk x o' =>
    cases x with
    | ok d =>
      dsimp only
      split
      · rfl
      · cases b with
        | false => rfl
        | true =>
          rw [if_pos rfl, if_pos rfl, M.bind_def]
          generalize liftW (ecEvent E .serious .valueError) o' = z
          obtain ⟨a, o''⟩ := z
          cases a <;> rfl
    | exc e => rfl
    | diverge => rfl

theorem event_serious (o : Obj δ ω) : liftW (ecEvent E .serious .valueError) o =
    if 3 ≤ E.level then (.exc .valueError, o)
    else if 0 < E.level ∧ E.silentWarnings = false then
      (.ok (), { o with out := o.out ++ [⟨.serious, .valueError, E.compactWarnings⟩] })
    else (.ok (), o) := by
  have hl : Event.serious.levelReq = 3 := rfl
  rw [liftW_apply]
  unfold ecEvent
  rw [fireEvent_eq _ _ _ _ _ (by decide), hl]
  by_cases h1 : 3 ≤ E.level
  · simp [h1]
  · by_cases h2 : 0 < E.level ∧ E.silentWarnings = false
    · simp [h1, h2]
    · simp only [h1, h2, if_false]
      simp

/-- C29 in terms of the invariant of clean histories. -/
theorem C29_settled (ho : Settled E s o) (known files : List Str) (doRaise : Bool) :
    match (assertSection E m known files s doRaise o).1 with
    | .ok none => ∀ k, ¬ Unhandled E s k
    | .ok (some msg) => (∃ k, Unhandled E s k) ∧ (doRaise = true → E.level < 3) ∧
        ∀ k, Unhandled E s k → ∃ x y, msg = x ++ py!"|- '" ++ k ++ py!"'" ++ y
    | .exc e => (edGet E m s o).1 = .exc e ∨
        (doRaise = true ∧ 3 ≤ E.level ∧ e = .valueError ∧ ∃ k, Unhandled E s k)
    | .diverge => (edGet E m s o).1 = .diverge := by
  have hres : ∀ d o', edGet E m s o = (.ok d, o') → Resolved E s d := by
    intro d o' hd
    rw [edGet_apply] at hd
    cases hp : parseOwner E m s false o with
    | mk x o1 =>
      rw [hp] at hd
      cases x with
      | ok u =>
        obtain ⟨d', h1, h2⟩ := parseOwner_settled ho hp
        simp only [lookup, h1] at hd
        cases hd; exact h2
      | exc e => cases hd
      | diverge => cases hd
  rw [assertSection_apply]
  cases hg : edGet E m s o with
  | mk x o' =>
    cases x with
    | exc e => exact .inl rfl
    | diverge => rfl
    | ok d =>
      have hr := hres d o' hg
      dsimp only
      by_cases hd : d = []
      · rw [if_pos hd]
        exact (resolved_nil_iff hr).mp hd
      · rw [if_neg hd]
        have hun := unhandled_of_ne_nil hr hd
        have hinf : ∀ (tail : Str) k, Unhandled E s k → ∃ x y,
            rstrip (py!"Unhandled option found in section `" ++ s ++ py!"`" ++
              py!" or one of its dependent sections.\n" ++ py!"The following entries are unhandled:\n" ++
              bulletList (Dict.keys d) ++ tail) = x ++ py!"|- '" ++ k ++ py!"'" ++ y := by
          intro tail k hk
          obtain ⟨x, y, hxy⟩ := bullet_infix ((C02_keys_are_closure hr k).mpr hk)
          rw [hxy]
          generalize py!"Unhandled option found in section `" ++ s ++ py!"`" ++
              py!" or one of its dependent sections.\n" ++ py!"The following entries are unhandled:\n" = pre
          have : pre ++ (x ++ py!"|- '" ++ k ++ py!"'\n" ++ y) ++ tail =
              (pre ++ x ++ py!"|- '" ++ k) ++ '\'' :: (py!"\n" ++ y ++ tail) := by
            simp [List.append_assoc]
          obtain ⟨z, hz⟩ := rstrip_keeps (pre ++ x ++ py!"|- '" ++ k) '\'' (by decide) (py!"\n" ++ y ++ tail)
          rw [this, hz]
          exact ⟨pre ++ x, z, by simp [List.append_assoc]⟩
        cases doRaise with
        | false =>
          refine ⟨hun, (fun h => by cases h), fun k hk => ?_⟩
          obtain ⟨x, y, hxy⟩ := hinf [] k hk
          rw [List.append_nil] at hxy
          exact ⟨x, y, hxy⟩
        | true =>
          rw [if_pos rfl, event_serious]
          by_cases hl : 3 ≤ E.level
          · rw [if_pos hl]
            exact .inr ⟨rfl, hl, rfl, hun⟩
          · rw [if_neg hl]
            have fin : ∀ k, Unhandled E s k → ∃ x y,
              rstrip (py!"Unhandled option found in section `" ++ s ++ py!"`" ++
                py!" or one of its dependent sections.\n" ++ py!"The following entries are unhandled:\n" ++
                bulletList (Dict.keys d) ++ knownOperationsMessage known ++
                py!"\nThis configuration was loaded from the file(s):\n|- " ++ joinStr py!"\n|- " files) =
                x ++ py!"|- '" ++ k ++ py!"'" ++ y := by
              intro k hk
              obtain ⟨x, y, hxy⟩ := hinf (knownOperationsMessage known ++
                py!"\nThis configuration was loaded from the file(s):\n|- " ++ joinStr py!"\n|- " files) k hk
              refine ⟨x, y, ?_⟩
              rw [← hxy]
              simp only [List.append_assoc]
            by_cases h2 : 0 < E.level ∧ E.silentWarnings = false
            · rw [if_pos h2]
              exact ⟨hun, fun _ => by omega, fin⟩
            · rw [if_neg h2]
              exact ⟨hun, fun _ => by omega, fin⟩

/-- C29: what `assert_section_all_options_handled` says about a section of the file (after any history clean for that
section): it returns 0 only if the section and its dependencies have no unhandled option; a returned message means
that there is one, that nothing had to be raised, and lists every unhandled key; a raise is either that of `get`, or
the ValueError for an unhandled option, which needs `do_raise` and level 3 at least. -/
theorem C29_assert_section_exact (ops : List EdOp) (w : ω) (hc : CleanFor E n s ops (Obj.fresh E w))
    (known files : List Str) (doRaise : Bool) :
    let o := EdOp.run E n ops (Obj.fresh E w)
    match (assertSection E m known files s doRaise o).1 with
    | .ok none => ∀ k, ¬ Unhandled E s k
    | .ok (some msg) => (∃ k, Unhandled E s k) ∧ (doRaise = true → E.level < 3) ∧
        ∀ k, Unhandled E s k → ∃ x y, msg = x ++ py!"|- '" ++ k ++ py!"'" ++ y
    | .exc e => (edGet E m s o).1 = .exc e ∨
        (doRaise = true ∧ 3 ≤ E.level ∧ e = .valueError ∧ ∃ k, Unhandled E s k)
    | .diverge => (edGet E m s o).1 = .diverge :=
  C29_settled (settled_run ops _ (settled_fresh E s w) hc) known files doRaise

/-- The example class at level 2, so that an unhandled option is only reported. -/
def env2 : Env (List Str) Unit := { envNoDefault with level := 2 }

/-- Section A has unhandled options, section H has none. -/
example : (assertSection env2 12 [] [] py!"H" true Example.o0).1 = .ok none ∧
    (assertSection Example.env 12 [] [] py!"A" true Example.o0).1 = .exc .valueError ∧
    (assertSection env2 12 [] [] py!"B" false Example.o0).1 = .ok (some (py!"Unhandled option found in section `B`" ++
      py!" or one of its dependent sections.\nThe following entries are unhandled:\n|- 'key 1'\n|- 'key 3'\n|- 'key 2'")) :=
  by decide +kernel

/-! ### C30 -/

/-- Asserting a section without raising has the effect of getting it. -/
theorem assertSection_quiet (known files : List Str) (o : Obj δ ω) :
    (assertSection E n known files s false o).2 = (edGet E n s o).2 := by
  rw [assertSection_apply]
  generalize edGet E n s o = z
  obtain ⟨x, o'⟩ := z
  cases x with
  | ok d =>
    dsimp only
    split
    · rfl
    · rfl
  | exc e => rfl
  | diverge => rfl

/-- The loop over the sections: it raises only what a `get` raises, and otherwise tells whether some section has an
unhandled option. -/
theorem assertLoop_exact (known files : List Str) (l : List Str) (o : Obj δ ω) (hs : ∀ s ∈ l, Settled E s o) :
    match (assertLoop E n known files l o).1 with
    | .ok b => b = true ↔ ∃ s ∈ l, ∃ k, Unhandled E s k
    | .exc e => ∃ pre s post, l = pre ++ s :: post ∧ (edGet E n s (EdOp.run E n (pre.map .get) o)).1 = .exc e
    | .diverge => ∃ pre s post, l = pre ++ s :: post ∧ (edGet E n s (EdOp.run E n (pre.map .get) o)).1 = .diverge := by
  induction l generalizing o with
  | nil =>
    change false = true ↔ _
    simp
  | cons t l ih =>
    have hq := assertSection_quiet (E := E) (n := n) (s := t) known files o
    have hget : (EdOp.exec E n (.get t) o).2 = (edGet E n t o).2 := by
      change ((edGet E n t >>= fun r => pure (EdVal.opts r)) o).2 = _
      rw [M.bind_def]
      generalize edGet E n t o = z
      obtain ⟨x, o'⟩ := z
      cases x <;> rfl
    have hloop : assertLoop E n known files (t :: l) = (assertSection E n known files t false >>= fun err =>
      assertLoop E n known files l >>= fun rest => pure (err.isSome || rest)) := rfl
    have hx := C29_settled (m := n) (hs t (.head _)) known files false
    have hk : ∀ s ∈ l, (∃ v, (assertSection E n known files t false o).1 = .ok v) →
        Settled E s (assertSection E n known files t false o).2 := by
      intro s hsl hv
      exact KeepsSettled.assertSection (strict := true) n known files t false (fun _ => rfl) o (hs s (.tail _ hsl)) (fun _ => hv)
    rw [hloop, M.bind_def]
    cases ha : assertSection E n known files t false o with
    | mk x o1 =>
      rw [ha] at hx hq hk
      dsimp only at hq hx hk ⊢
      cases x with
      | exc e =>
        rcases hx with hx | hx
        · exact ⟨[], t, l, rfl, hx⟩
        · exact absurd hx.1 (by simp)
      | diverge => exact ⟨[], t, l, rfl, hx⟩
      | ok err =>
        have ih' := ih o1 (fun s hsl => hk s hsl ⟨err, rfl⟩)
        have hrun : ∀ pre : List Str, EdOp.run E n ((t :: pre).map .get) o = EdOp.run E n (pre.map .get) o1 := by
          intro pre
          change EdOp.run E n (pre.map .get) (EdOp.exec E n (.get t) o).2 = _
          rw [hget, ← hq]
        dsimp only
        rw [M.bind_def]
        cases hl : assertLoop E n known files l o1 with
        | mk y o2 =>
          rw [hl] at ih'
          cases y with
          | exc e =>
            obtain ⟨pre, s, post, h1, h2⟩ := ih'
            exact ⟨t :: pre, s, post, by rw [h1]; rfl, by rw [hrun]; exact h2⟩
          | diverge =>
            obtain ⟨pre, s, post, h1, h2⟩ := ih'
            exact ⟨t :: pre, s, post, by rw [h1]; rfl, by rw [hrun]; exact h2⟩
          | ok b =>
            change (err.isSome || b) = true ↔ _
            dsimp only at ih'
            cases err with
            | none =>
              simp only [Option.isSome_none, Bool.false_or]
              rw [ih']
              constructor
              · rintro ⟨s, h1, h2⟩; exact ⟨s, .tail _ h1, h2⟩
              · rintro ⟨s, h1, k, h2⟩
                rcases List.mem_cons.mp h1 with rfl | h1
                · exact absurd h2 (hx k)
                · exact ⟨s, h1, k, h2⟩
            | some msg =>
              simp only [Option.isSome_some, Bool.true_or, true_iff]
              exact ⟨t, .head _, hx.1⟩

/-- C30: `assert_file_all_sections_handled`, after any history clean for the sections of the file: it returns 0 iff no
section has an unhandled option (its own or of a dependency), returns 1 only below level 3 and if some has one, raises
ValueError from level 3 on if some has one, and otherwise raises only what `get` of one of the sections raises. -/
theorem C30_assert_file_exact (ops : List EdOp) (w : ω) (hc : ∀ s ∈ E.cfg.sectionNames, CleanFor E n s ops (Obj.fresh E w))
    (known files : List Str) :
    let o := EdOp.run E n ops (Obj.fresh E w)
    match (assertFile E m known files o).1 with
    | .ok 0 => ∀ s ∈ E.cfg.sectionNames, ∀ k, ¬ Unhandled E s k
    | .ok r => r = 1 ∧ E.level < 3 ∧ ∃ s ∈ E.cfg.sectionNames, ∃ k, Unhandled E s k
    | .exc e => (e = .valueError ∧ 3 ≤ E.level ∧ ∃ s ∈ E.cfg.sectionNames, ∃ k, Unhandled E s k) ∨
        ∃ pre s post, E.cfg.sectionNames = pre ++ s :: post ∧ (edGet E m s (EdOp.run E m (pre.map .get) o)).1 = .exc e
    | .diverge => ∃ pre s post, E.cfg.sectionNames = pre ++ s :: post ∧
        (edGet E m s (EdOp.run E m (pre.map .get) o)).1 = .diverge := by
  intro o
  have ho : ∀ s ∈ E.cfg.sectionNames, Settled E s o := fun s hs => settled_run ops _ (settled_fresh E s w) (hc s hs)
  clear_value o
  have hloop := assertLoop_exact (n := m) known files E.cfg.sectionNames o ho
  unfold assertFile
  rw [M.bind_def]
  cases hl : assertLoop E m known files E.cfg.sectionNames o with
  | mk x o1 =>
    rw [hl] at hloop
    cases x with
    | exc e => exact .inr hloop
    | diverge => exact hloop
    | ok b =>
      cases b with
      | false =>
        change ∀ s ∈ E.cfg.sectionNames, ∀ k, ¬ Unhandled E s k
        intro s hs k hk
        have := hloop.mpr ⟨s, hs, k, hk⟩
        cases this
      | true =>
        have hun := hloop.mp rfl
        dsimp only
        rw [if_pos rfl, M.bind_def, event_serious]
        by_cases h3 : 3 ≤ E.level
        · rw [if_pos h3]
          exact .inl ⟨rfl, h3, hun⟩
        · rw [if_neg h3]
          by_cases h2 : 0 < E.level ∧ E.silentWarnings = false
          · rw [if_pos h2]
            exact ⟨rfl, by omega, hun⟩
          · rw [if_neg h2]
            exact ⟨rfl, by omega, hun⟩

/-- A file with only handled options. -/
def envAllHandled (level : Nat) : Env (List Str) Unit :=
  { Example.env with level := level, cfg := { sections :=
      [(py!"A", [(py!"use B", some []), (py!"set-var foo", some py!"bar")]), (py!"B", [(py!"set_var x", none)])] } }

/-- Same with an unhandled option in B. -/
def envOneUnhandled (level : Nat) : Env (List Str) Unit :=
  { Example.env with level := level, cfg := { sections :=
      [(py!"A", [(py!"use B", some []), (py!"set-var foo", some py!"bar")]), (py!"B", [(py!"set_var x", none), (py!"y", none)])] } }

example : (assertFile (envAllHandled 4) 12 [] [] Example.o0).1 = .ok 0 ∧
    (assertFile (envOneUnhandled 2) 12 [] [] Example.o0).1 = .ok 1 ∧
    (assertFile (envOneUnhandled 4) 12 [] [] Example.o0).1 = .exc .valueError ∧
    (assertFile Example.env 12 [] [] Example.o0).1 = .exc .keyError := by decide +kernel

/-! ### C35 -/

/-- C35: whatever happened before, `keys()`, `len()` and `sections()` answer with the section names of the file, in
file order, and change nothing. -/
theorem C35_listing (ops : List EdOp) (w : ω) :
    let o := EdOp.run E n ops (Obj.fresh E w)
    EdOp.exec E m .keys o = (.ok (.names (E.cfg.sections.map Prod.fst)), o) ∧
    EdOp.exec E m .len o = (.ok (.nat E.cfg.sections.length), o) ∧
    EdOp.exec E m (.sections .no) o = (.ok (.names (E.cfg.sections.map Prod.fst)), o) := by
  refine ⟨rfl, ?_, rfl⟩
  change (Out.ok (EdVal.nat (E.cfg.sections.map Prod.fst).length), _) = _
  rw [List.length_map]

/-- C35: also with parsing asked for, if `sections` returns it returns these names. -/
theorem C35_sections_names (a : SectionsArg) {l : List Str} (h : (edSections E n a o).1 = .ok l) :
    l = E.cfg.sections.map Prod.fst := by
  have fin : ∀ {x : M (Obj δ ω) Unit}, ((x >>= fun _ => pure (edKeys E)) o).1 = .ok l → l = edKeys E := by
    intro x hx
    rw [M.bind_def] at hx
    generalize x o = z at hx
    obtain ⟨y, o'⟩ := z
    cases y <;> cases hx
    rfl
  cases a with
  | no => cases h; rfl
  | yes => exact fin h
  | force => exact fin h
  | otherStr => cases h
  | otherType => cases h

/-- `parse_section` of each name of a list in order, up to the first failure. -/
def parseEach (E : Env δ ω) (n : Nat) : List Str → Obj δ ω → Out Unit × Obj δ ω
  | [], o => (.ok (), o)
  | s :: l, o => match parseSection E n s true true o with
    | (.ok _, o') => parseEach E n l o'
    | (.exc e, o') => (.exc e, o')
    | (.diverge, o') => (.diverge, o')

/-- A result with its value replaced. -/
def Out.withVal {α β : Type} (b : β) : Out α → Out β
  | .ok _ => .ok b
  | .exc e => .exc e
  | .diverge => .diverge

/-- C35: `sections('force')` parses every section of the file in order, up to the first failure. -/
theorem C35_force_parses_all (hne : [] ∉ E.cfg.sectionNames) (o : Obj δ ω) :
    (edSections E n .force o).1 = Out.withVal E.cfg.sectionNames (parseEach E n E.cfg.sectionNames o).1 ∧
    (edSections E n .force o).2 = (parseEach E n E.cfg.sectionNames o).2 := by
  have hloop : ∀ (l : List Str), [] ∉ l → ∀ o : Obj δ ω,
      M.forEach l (fun s => parseOwner E n s true) o = parseEach E n l o := by
    intro l
    induction l with
    | nil => intro _ o; rfl
    | cons s l ih =>
      intro hl o
      have hs : s ≠ [] := fun h => hl (h ▸ .head _)
      rw [M.forEach_cons, M.bind_def, parseOwner_first hs true (.inr rfl)]
      unfold parseEach
      generalize parseSection E n s true true o = z
      obtain ⟨y, o'⟩ := z
      cases y with
      | ok r => exact ih (fun h => hl (.tail _ h)) o'
      | exc e => rfl
      | diverge => rfl
  change ((M.forEach (edKeys E) (fun s => parseOwner E n s true) >>= fun _ => pure (edKeys E)) o).1 = _ ∧
    ((M.forEach (edKeys E) (fun s => parseOwner E n s true) >>= fun _ => pure (edKeys E)) o).2 = _
  rw [M.bind_def, hloop (edKeys E) hne]
  change _ = Out.withVal (edKeys E) (parseEach E n (edKeys E) o).1 ∧ _ = (parseEach E n (edKeys E) o).2
  generalize parseEach E n (edKeys E) o = z
  obtain ⟨y, o'⟩ := z
  cases y <;> exact ⟨rfl, rfl⟩

/-- C35: `sections(True)` (hence also `parse_all_sections()`) parses, in file order and up to the first failure,
exactly the sections never parsed before. -/
theorem C35_parse_missing_only (hne : [] ∉ E.cfg.sectionNames) (hnd : E.cfg.sectionNames.Nodup) (o : Obj δ ω) :
    let todo := E.cfg.sectionNames.filter fun s => decide (s ∉ o.checked)
    (edSections E n .yes o).1 = Out.withVal E.cfg.sectionNames (parseEach E n todo o).1 ∧
    (edSections E n .yes o).2 = (parseEach E n todo o).2 ∧
    (parseAllSections E n o).2 = (parseEach E n todo o).2 := by
  intro todo
  have hloop : ∀ (l : List Str), [] ∉ l → l.Nodup → ∀ o : Obj δ ω,
      M.forEach l (fun s => parseOwner E n s false) o = parseEach E n (l.filter fun s => decide (s ∉ o.checked)) o := by
    intro l
    induction l with
    | nil => intro _ _ o; rfl
    | cons s l ih =>
      intro hl hn o
      have hs : s ≠ [] := fun h => hl (h ▸ .head _)
      have hl' : [] ∉ l := fun h => hl (.tail _ h)
      rw [List.nodup_cons] at hn
      rw [M.forEach_cons, M.bind_def]
      by_cases hc : s ∈ o.checked
      · rw [parseOwner_checked hc, List.filter_cons_of_neg (by simpa using hc)]
        exact ih hl' hn.2 o
      · rw [parseOwner_first hs false (.inl hc), List.filter_cons_of_pos (by simpa using hc)]
        have hchk := parseSection_checked E n hs true true o
        unfold parseEach
        generalize parseSection E n s true true o = z at hchk
        obtain ⟨y, o'⟩ := z
        cases y with
        | ok r =>
          have : l.filter (fun s => decide (s ∉ o'.checked)) = l.filter (fun s => decide (s ∉ o.checked)) := by
            refine List.filter_congr fun t ht => ?_
            have hts : t ≠ s := fun h => hn.1 (h ▸ ht)
            dsimp only at hchk
            rw [hchk]
            simp only [mem_setAdd, hts, false_or]
          dsimp only
          rw [ih hl' hn.2 o', this]
        | exc e => rfl
        | diverge => rfl
  have hbind : ∀ β (b : β), (M.forEach (edKeys E) (fun s => parseOwner E n s false) >>= fun _ => pure b) o =
      (Out.withVal b (parseEach E n todo o).1, (parseEach E n todo o).2) := by
    intro β b
    rw [M.bind_def, hloop (edKeys E) hne hnd]
    change _ = (Out.withVal b (parseEach E n todo o).1, (parseEach E n todo o).2)
    have : (edKeys E).filter (fun s => decide (s ∉ o.checked)) = todo := rfl
    rw [this]
    generalize parseEach E n todo o = z
    obtain ⟨y, o'⟩ := z
    cases y <;> rfl
  have hyes : edSections E n .yes o = (Out.withVal (edKeys E) (parseEach E n todo o).1, (parseEach E n todo o).2) :=
    hbind _ _
  refine ⟨by rw [hyes]; rfl, by rw [hyes], ?_⟩
  have hall : parseAllSections E n o = (edSections E n .yes >>= fun _ => pure ()) o := rfl
  rw [hall, M.bind_def, hyes]
  generalize parseEach E n todo o = z
  obtain ⟨y, o'⟩ := z
  cases y <;> rfl

/-- In the example the second section listed, A, is already parsed and parsing all then stops at D. -/
example : [] ∉ Example.env.cfg.sectionNames ∧ Example.env.cfg.sectionNames.Nodup ∧
    (Example.env.cfg.sectionNames.filter fun s => decide (s ∉ Example.oA.checked)) =
      [py!"DEFAULT", py!"B", py!"C", py!"D", py!"H"] ∧
    (edSections Example.env 12 .yes Example.oA).1 = .exc .keyError ∧
    py!"C" ∈ (edSections Example.env 12 .yes Example.oA).2.checked ∧
    py!"H" ∉ (edSections Example.env 12 .yes Example.oA).2.checked := by decide +kernel

/-! ### C36 -/

/-- The stored value of an option of a section. -/
def stored (o : Obj δ ω) (t k : Str) : Option (Option Str) := (Dict.get? o.data t).bind fun d => Dict.get? d k

/-- C36: `set(S, k, v)` first asks `has_section(S)`, which may parse S; if that raises nothing is set. Otherwise `v` is
stored under `k` in S, every other option of every section keeps the value it had, S exists, and no other section
appears or disappears. -/
theorem C36_set_effect (k : Str) (v : Option Str) (o : Obj δ ω) :
    match edHasSection E n s o with
    | (.ok _, o1) => (edSet E n s k v o).1 = .ok () ∧
        (∀ t k', stored (edSet E n s k v o).2 t k' = if t = s ∧ k' = k then some v else stored o1 t k') ∧
        (∀ t, (Dict.get? (edSet E n s k v o).2.data t).isSome = true ↔ t = s ∨ (Dict.get? o1.data t).isSome = true) ∧
        (edSet E n s k v o).2.checked = o1.checked ∧ (edSet E n s k v o).2.out = o1.out
    | (.exc e, o1) => edSet E n s k v o = (.exc e, o1)
    | (.diverge, o1) => edSet E n s k v o = (.diverge, o1) := by
  have hset : edSet E n s k v = (edHasSection E n s >>= fun b => (if b = false then edAddSection s false else pure ()) >>= fun _ =>
      M.modify fun o => { o with data := Dict.set o.data s (Dict.set ((Dict.get? o.data s).getD []) k v) }) := by
    unfold edSet
    congr 1
    funext b
    cases b <;> rfl
  rw [hset, M.bind_def]
  generalize edHasSection E n s o = z
  obtain ⟨y, o1⟩ := z
  cases y with
  | exc e => rfl
  | diverge => rfl
  | ok b =>
    dsimp only
    have key : ∀ o2 : Obj δ ω, o2.checked = o1.checked → o2.out = o1.out → (∀ t, (Dict.get? o2.data t).getD [] = (Dict.get? o1.data t).getD []) →
        (∀ t, t ≠ s → Dict.get? o2.data t = Dict.get? o1.data t) →
        let o3 : Obj δ ω := { o2 with data := Dict.set o2.data s (Dict.set ((Dict.get? o2.data s).getD []) k v) }
        (∀ t k', stored o3 t k' = if t = s ∧ k' = k then some v else stored o1 t k') ∧
        (∀ t, (Dict.get? o3.data t).isSome = true ↔ t = s ∨ (Dict.get? o1.data t).isSome = true) ∧
        o3.checked = o1.checked ∧ o3.out = o1.out := by
      intro o2 hck hout hget hne o3
      refine ⟨fun t k' => ?_, fun t => ?_, hck, hout⟩
      · simp only [stored, o3]
        by_cases ht : t = s
        · subst ht
          rw [Dict.get?_set_self, Option.bind_some, Dict.get?_set, hget]
          by_cases hk : k' = k
          · simp [hk]
          · simp only [hk, and_false, if_false]
            cases Dict.get? o1.data t <;> rfl
        · rw [Dict.get?_set_ne _ _ ht, hne t ht]
          simp [ht]
      · simp only [o3]
        by_cases ht : t = s
        · subst ht; simp [Dict.get?_set_self]
        · rw [Dict.get?_set_ne _ _ ht, hne t ht]; simp [ht]
    cases b with
    | true =>
      obtain ⟨h1, h2⟩ := key o1 rfl rfl (fun _ => rfl) (fun _ _ => rfl)
      exact ⟨rfl, h1, h2⟩
    | false =>
      have hadd : (if false = false then edAddSection s false else pure ()) o1 =
          (.ok (), if Dict.mem o1.data s = false then { o1 with data := Dict.set o1.data s [] } else o1) := by
        rw [if_pos rfl]
        change (Out.ok (), if false = true ∨ Dict.mem o1.data s = false then _ else _) = _
        simp
      rw [M.bind_ok hadd]
      have hsame : let o2 := (if Dict.mem o1.data s = false then { o1 with data := Dict.set o1.data s [] } else o1 : Obj δ ω)
          o2.checked = o1.checked ∧ o2.out = o1.out ∧ (∀ t, (Dict.get? o2.data t).getD [] = (Dict.get? o1.data t).getD []) ∧
          (∀ t, t ≠ s → Dict.get? o2.data t = Dict.get? o1.data t) := by
        intro o2
        by_cases hm : Dict.mem o1.data s = false
        · have ho2 : o2 = { o1 with data := Dict.set o1.data s [] } := if_pos hm
          rw [ho2]
          refine ⟨rfl, rfl, fun t => ?_, fun t ht => Dict.get?_set_ne _ _ ht⟩
          by_cases ht : t = s
          · subst ht
            change (Dict.get? (Dict.set o1.data t []) t).getD [] = _
            rw [Dict.get?_set_self]
            have : Dict.get? o1.data t = none := by simpa [Dict.mem] using hm
            rw [this]; rfl
          · change (Dict.get? (Dict.set o1.data s []) t).getD [] = _
            rw [Dict.get?_set_ne _ _ ht]
        · have ho2 : o2 = o1 := if_neg hm
          rw [ho2]
          exact ⟨rfl, rfl, fun _ => rfl, fun _ _ => rfl⟩
      obtain ⟨h0, hout, h1, h2⟩ := hsame
      obtain ⟨h3, h4⟩ := key _ h0 hout h1 h2
      exact ⟨rfl, h3, h4⟩

/-- C36: a value set in a section of the file is read back by `get`, which changes nothing. -/
theorem C36_set_then_get (hf : E.cfg.hasSection s = true) {k : Str} {v : Option Str} {u : Unit}
    (h : edSet E n s k v o = (.ok u, o')) : edGetOption E m s k o' = (.ok v, o') := by
  have hc := C36_set_effect (E := E) (n := n) (s := s) k v o
  have hm := parseOwner_marks E n s false o
  rw [h] at hc
  rw [edHasSection_apply hf] at hc
  cases hp : parseOwner E n s false o with
  | mk y o1 =>
    rw [hp] at hc hm
    cases y with
    | ok r =>
      obtain ⟨-, h2, -, h4, -⟩ := hc
      have hck : s ∈ o'.checked := by
        change o'.checked = o1.checked at h4
        rw [h4]; exact hm
      have hst : stored o' s k = some v := by
        rw [show stored o' s k = _ from h2 s k]; simp
      rw [edGetOption_checked hck]
      unfold stored at hst
      cases hd : Dict.get? o'.data s with
      | none => rw [hd] at hst; cases hst
      | some d =>
        rw [hd, Option.bind_some] at hst
        simp only [hst]
    | exc e => cases hc
    | diverge => cases hc

/-- C36: with a name that is not in the file, never asked for before, the value set is seen by `options`, `[]` and
`items`; but `get` parses the missing section first and never returns. -/
theorem C36_set_missing_section (hf : E.cfg.hasSection s = false) (ho : E.cfg.optionNames s = none) (hck : s ∉ o.checked)
    {k : Str} {v : Option Str} :
    ∃ o', edSet E n s k v o = (.ok (), o') ∧
      (∃ d, EdOp.exec E m (.options s) o' = (.ok (.opts d), o') ∧ Dict.get? d k = some v) ∧
      ∀ x, (EdOp.exec E m (.getOption s k) o').1 ≠ .ok x := by
  have hc := C36_set_effect (E := E) (n := n) (s := s) k v o
  rw [edHasSection_missing hf] at hc
  obtain ⟨h1, h2, -, h4, -⟩ := hc
  cases hx : edSet E n s k v o with
  | mk y o' =>
    rw [hx] at h1 h2 h4
    dsimp only at h1 h2 h4
    subst h1
    refine ⟨o', rfl, ?_, ?_⟩
    · have hst := h2 s k
      rw [if_pos ⟨rfl, rfl⟩] at hst
      unfold stored at hst
      cases hd : Dict.get? o'.data s with
      | none => rw [hd] at hst; cases hst
      | some d =>
        rw [hd, Option.bind_some] at hst
        refine ⟨d, ?_, hst⟩
        rw [C09_options_missing hf o' (.inl rfl), hd]
    · intro x
      exact C09_first_access_raises ho (by rw [h4]; exact hck) (.inr ⟨k, .inr rfl⟩) x

example : (edSet Example.env 12 py!"A" py!"key 1" (some py!"new") Example.o0).1 = .ok () ∧
    (edGetOption Example.env 12 py!"A" py!"key 1" (edSet Example.env 12 py!"A" py!"key 1" (some py!"new") Example.o0).2).1 =
      .ok (some py!"new") ∧
    stored (edSet Example.env 12 py!"A" py!"key 1" (some py!"new") Example.o0).2 py!"A" py!"key 2" = some (some py!"2") ∧
    (edSet Example.env 12 py!"D" py!"key 1" (some py!"new") Example.o0).1 = .exc .keyError ∧
    (edGetOption Example.env 12 py!"NEW" py!"x" (edSet Example.env 12 py!"NEW" py!"x" (some py!"1") Example.o0).2).1 =
      .exc .keyError := by decide +kernel

end CPE.Props
