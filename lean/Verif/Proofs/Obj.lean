import Verif.Proofs.Pres
import Verif.Model.EnhancedData
/-
`parse_section` on an object, in terms of replay; and what every access preserves.
-/
namespace CPE
open Spec
variable {δ ω : Type}

theorem liftW_apply {α : Type} (m : M (World δ ω) α) (o : Obj δ ω) :
    liftW m o = ((m o.toWorld).1, { toWorld := (m o.toWorld).2, lastResult := o.lastResult }) := rfl

/-- The state in which the recursion of a parse of `s` starts. -/
def startCore (E : Env δ ω) (s : Str) (c : Core δ ω) : Core δ ω :=
  { c with shared := E.emptyShared, checked := setAdd c.checked s }

theorem parseRoot_apply (E : Env δ ω) (n : Nat) (s : Str) (i f : Bool) (w : World δ ω) :
    parseRoot E n s i f w =
      match parseR E n s s i f { toCore := startCore E s w.toCore, processed := [], log := [] } with
      | (.ok _, w') => (.ok w'.shared, w')
      | (.exc e, w') => (.exc e, w')
      | (.diverge, w') => (.diverge, w') := by
  unfold parseRoot
  rw [M.modify_bind, M.bind_def]
  simp only [startCore]
  cases parseR E n s s i f _ with
  | mk o w' => cases o <;> rfl

theorem parseSection_nil (E : Env δ ω) (n : Nat) (i f : Bool) (o : Obj δ ω) :
    parseSection E n [] i f o = (.exc .valueError, { o with log := [] }) := rfl

theorem parseSection_apply (E : Env δ ω) (n : Nat) {s : Str} (hs : s ≠ []) (i f : Bool) (o : Obj δ ω) :
    parseSection E n s i f o =
      match parseR E n s s i f { toCore := startCore E s o.toCore, processed := [], log := [] } with
      | (.ok _, w') => (.ok w'.shared, { toWorld := w', lastResult := some w'.shared })
      | (.exc e, w') => (.exc e, { toWorld := w', lastResult := o.lastResult })
      | (.diverge, w') => (.diverge, { toWorld := w', lastResult := o.lastResult }) := by
  unfold parseSection
  rw [M.modify_bind, if_neg hs, M.bind_def, liftW_apply, parseRoot_apply]
  dsimp only
  generalize parseR E n s s i f _ = x
  obtain ⟨r, w'⟩ := x
  cases r <;> rfl

theorem parseSection_ok {E : Env δ ω} {n : Nat} {s : Str} {i f : Bool} {o o' : Obj δ ω} {r : δ}
    (h : parseSection E n s i f o = (.ok r, o')) :
    s ≠ [] ∧ r = o'.shared ∧ o'.lastResult = some r ∧
    ∀ evs, ParseTrace E s i f evs → replay E s evs (startCore E s o.toCore) = (none, o'.toCore) := by
  by_cases hs : s = []
  · subst hs; rw [parseSection_nil] at h; cases h
  · rw [parseSection_apply E n hs] at h
    cases hp : parseR E n s s i f { toCore := startCore E s o.toCore, processed := [], log := [] } with
    | mk x w' =>
      rw [hp] at h
      cases x with
      | ok u =>
        cases h
        refine ⟨hs, rfl, rfl, fun evs ht => ?_⟩
        exact parse_success hp rfl ht
      | exc e => cases h
      | diverge => cases h

/-- The outcome of `parse_section` for enough fuel. -/
theorem parseSection_replay {E : Env δ ω} {n : Nat} {s : Str} {i f : Bool} {o : Obj δ ω} {evs : List (Ev δ ω)}
    (hs : s ≠ []) (ht : ParseTrace E s i f evs) (hn : E.cfg.sectionNames.length + 3 ≤ n)
    (hd : i = true → E.cfg.hasSection E.defaultName = true → s = E.defaultName ∨ ¬ Reaches E E.defaultName s) :
    (parseSection E n s i f o).1 = outcomeV (replay E s evs (startCore E s o.toCore)).2.shared
        (replay E s evs (startCore E s o.toCore)).1 ∧
    (parseSection E n s i f o).2.toCore = (replay E s evs (startCore E s o.toCore)).2 ∧
    (parseSection E n s i f o).2.lastResult =
      (match (replay E s evs (startCore E s o.toCore)).1 with
       | none => some (replay E s evs (startCore E s o.toCore)).2.shared
       | some _ => o.lastResult) := by
  rw [parseSection_apply E n hs]
  have := simParse ht hn hd { toCore := startCore E s o.toCore, processed := [], log := [] } (by simp)
  obtain ⟨h1, h2, _⟩ := this
  cases hr : replay E s evs (startCore E s o.toCore) with
  | mk x c =>
    rw [hr] at h1 h2
    cases hp : parseR E n s s i f { toCore := startCore E s o.toCore, processed := [], log := [] } with
    | mk y w' =>
      rw [hp] at h1 h2
      dsimp only at h1 h2
      cases x with
      | none => subst h1; subst h2; exact ⟨rfl, rfl, rfl⟩
      | some e => subst h1; subst h2; exact ⟨rfl, rfl, rfl⟩

theorem parseSection_frame (E : Env δ ω) (n : Nat) (s : Str) (i f : Bool) (o : Obj δ ω) (t : Str) (ht : t ≠ s) :
    Dict.get? (parseSection E n s i f o).2.data t = Dict.get? o.data t ∨
    (Dict.get? o.data t = none ∧ Dict.get? (parseSection E n s i f o).2.data t = some [] ∧
      (E.cfg.optionNames t).isSome) := by
  by_cases hs : s = []
  · subst hs; exact .inl rfl
  · rw [parseSection_apply E n hs]
    have := (stepRel_frame E s).parseR n s i f { toCore := startCore E s o.toCore, processed := [], log := [] } t ht
    generalize parseR E n s s i f _ = x at this
    obtain ⟨r, w'⟩ := x
    cases r <;> exact this

theorem parseSection_checked (E : Env δ ω) (n : Nat) {s : Str} (hs : s ≠ []) (i f : Bool) (o : Obj δ ω) :
    (parseSection E n s i f o).2.checked = setAdd o.checked s := by
  rw [parseSection_apply E n hs]
  have := (stepRel_checked E s).parseR n s i f { toCore := startCore E s o.toCore, processed := [], log := [] }
  generalize parseR E n s s i f _ = x at this
  obtain ⟨r, w'⟩ := x
  cases r <;> exact this

/-! ### traces of completed parses -/

theorem unrolls_sec_cases {E : Env δ ω} {root : Str} {path : List Str} {s : Str} {evs : List (Ev δ ω)}
    (h : Unrolls E root (.sec path s) evs) :
    (E.cfg.optionNames s = none ∧ evs = [.missing s]) ∨
    ∃ keys rest, E.cfg.optionNames s = some keys ∧ evs = .visit s :: rest ∧
      Unrolls E root (.opts (s :: path) s keys) rest := by
  cases h with
  | missing h => exact .inl ⟨h, rfl⟩
  | sec h h' => exact .inr ⟨_, _, h, rfl, h'⟩

theorem replay_none_prefix {E : Env δ ω} {root : Str} {a b : List (Ev δ ω)} {c c' : Core δ ω}
    (h : replay E root (a ++ b) c = (none, c')) : ∃ c1, replay E root a c = (none, c1) ∧
      replay E root b c1 = (none, c') := by
  rw [replay_append] at h
  cases ha : replay E root a c with
  | mk o c1 =>
    rw [ha] at h
    cases o with
    | none => exact ⟨c1, rfl, h⟩
    | some e => cases h

theorem replay_none_no_missing {E : Env δ ω} {root : Str} {evs : List (Ev δ ω)} {c c' : Core δ ω}
    (h : replay E root evs c = (none, c')) : (∀ s, .missing s ∉ evs) ∧ ∀ e, .fail e ∉ evs := by
  constructor
  · intro s hm
    obtain ⟨a, b, rfl⟩ := List.append_of_mem hm
    obtain ⟨c1, _, h2⟩ := replay_none_prefix h
    cases h2
  · intro e hm
    obtain ⟨a, b, rfl⟩ := List.append_of_mem hm
    obtain ⟨c1, _, h2⟩ := replay_none_prefix h
    cases h2

theorem parseTrace_visits_root {E : Env δ ω} {s : Str} {i f : Bool} {evs : List (Ev δ ω)} {c c' : Core δ ω}
    (ht : ParseTrace E s i f evs) (h : replay E s evs c = (none, c')) : s ∈ visits evs ∧ (E.cfg.optionNames s).isSome := by
  obtain ⟨h1, h2, h3⟩ := ht
  rename_i evD evR
  rcases unrolls_sec_cases h3 with ⟨_, rfl⟩ | ⟨keys, rest, ho, rfl, _⟩
  · exact absurd (by simp) ((replay_none_no_missing h).1 s)
  · refine ⟨mem_visits.mpr (by simp), by simp [ho]⟩

/-- The data of the parsed section after a successful `parse_section`. -/
theorem parseSection_ok_data {E : Env δ ω} {n : Nat} {s : Str} {i f : Bool} {o o' : Obj δ ω} {r : δ}
    (h : parseSection E n s i f o = (.ok r, o')) {evs : List (Ev δ ω)} (ht : ParseTrace E s i f evs) :
    Dict.get? o'.data s = some (writeAll ((Dict.get? o.data s).getD []) (stores evs)) := by
  have hr := (parseSection_ok h).2.2.2 evs ht
  have hv := (parseTrace_visits_root ht hr).1
  rw [replay_root E s evs _ _ hr, if_neg (fun hx => hx.2 hv)]
  rfl

/-! ### the invariant of lazy access -/

/-- `finalize` does not matter for the data. -/
theorem parseTrace_fin {E : Env δ ω} {s : Str} {i f : Bool} {evs : List (Ev δ ω)} (ht : ParseTrace E s i f evs) :
    ∃ evs', ParseTrace E s i true evs' ∧ stores evs' = stores evs := by
  obtain ⟨h1, h2, h3⟩ := ht
  refine ⟨_, .mk h1 h2 h3, ?_⟩
  cases f <;> simp [stores_append, stores]

/-- Section `s` either was not asked for yet, or holds its resolved data. -/
def Settled (E : Env δ ω) (s : Str) (o : Obj δ ω) : Prop :=
  (s ∈ o.checked → ∃ d, Dict.get? o.data s = some d ∧ Resolved E s d) ∧
  (s ∉ o.checked → Dict.get? o.data s = none ∨ Dict.get? o.data s = some [])

theorem settled_parseSection {E : Env δ ω} {n : Nat} {s t : Str} {f : Bool} {i : Bool} {o : Obj δ ω}
    (ho : Settled E s o) (hi : t = s → i = true)
    (hok : t = s → ∃ r, (parseSection E n t i f o).1 = .ok r) : Settled E s (parseSection E n t i f o).2 := by
  by_cases hts : t = s
  · subst hts
    have := hi rfl; subst this
    obtain ⟨r, hr⟩ := hok rfl
    have h : parseSection E n t true f o = (.ok r, (parseSection E n t true f o).2) := by rw [← hr]
    obtain ⟨evs, ht⟩ := parseTrace_total E t true f
    have hd := parseSection_ok_data h ht
    have hs := (parseSection_ok h).1
    obtain ⟨evs', ht', hst⟩ := parseTrace_fin ht
    have hc := parseSection_checked E n hs true f o
    have hin : t ∈ (parseSection E n t true f o).2.checked := by rw [hc, mem_setAdd]; exact .inl rfl
    refine ⟨fun _ => ⟨_, hd, evs', ht', ?_⟩, fun hn => absurd hin hn⟩
    rw [hst, lastWins_iff]
    by_cases hch : t ∈ o.checked
    · obtain ⟨d, h1, evs2, ht2, hl2⟩ := ho.1 hch
      have e := parseTrace_det ht' ht2
      subst e
      rw [lastWins_iff, hst] at hl2
      rw [h1, hl2, Option.getD_some]
      exact writeAll_idem _ (by simp [Dict.keys]) _
    · rcases ho.2 hch with h1 | h1 <;> rw [h1] <;> rfl
  · have hst : s ≠ t := fun e => hts e.symm
    have hf := parseSection_frame E n t i f o s hst
    have hc : s ∈ (parseSection E n t i f o).2.checked ↔ s ∈ o.checked := by
      by_cases he : t = []
      · subst he; rfl
      · rw [parseSection_checked E n he, mem_setAdd]
        simp [hst]
    refine ⟨fun h => ?_, fun h => ?_⟩
    · obtain ⟨d, h1, h2⟩ := ho.1 (hc.mp h)
      rcases hf with hf | ⟨hf, _⟩
      · exact ⟨d, by rw [hf]; exact h1, h2⟩
      · rw [h1] at hf; cases hf
    · rcases hf with hf | ⟨_, hf, _⟩
      · rw [hf]; exact ho.2 (fun hx => h (hc.mpr hx))
      · exact .inr hf

/-- `m` keeps `s` settled; when `strict`, provided it succeeds. -/
def KeepsSettled {α : Type} (E : Env δ ω) (s : Str) (strict : Bool) (m : M (Obj δ ω) α) : Prop :=
  ∀ o, Settled E s o → (strict = true → ∃ a, (m o).1 = .ok a) → Settled E s (m o).2

theorem KeepsSettled.bind {α β : Type} {E : Env δ ω} {s : Str} {strict : Bool} {m : M (Obj δ ω) α} {f : α → M (Obj δ ω) β}
    (h : KeepsSettled E s strict m) (hf : ∀ a, KeepsSettled E s strict (f a)) : KeepsSettled E s strict (m >>= f) := by
  intro o ho hs
  have h1 := h o ho
  rw [M.bind_def] at hs ⊢
  cases hm : m o with
  | mk x o' =>
    rw [hm] at h1 hs
    cases x with
    | ok a => exact hf a o' (h1 (fun _ => ⟨a, rfl⟩)) hs
    | exc e => exact h1 (fun h => by obtain ⟨a, ha⟩ := hs h; cases ha)
    | diverge => exact h1 (fun h => by obtain ⟨a, ha⟩ := hs h; cases ha)

theorem KeepsSettled.same {α : Type} {E : Env δ ω} {s : Str} {strict : Bool} {m : M (Obj δ ω) α}
    (h : ∀ o, (m o).2 = o) : KeepsSettled E s strict m := by
  intro o ho _
  rw [h o]; exact ho

theorem KeepsSettled.pure' {α : Type} {E : Env δ ω} {s : Str} {strict : Bool} (a : α) :
    KeepsSettled E s strict (pure a) := .same fun _ => rfl

theorem KeepsSettled.raise' {α : Type} {E : Env δ ω} {s : Str} {strict : Bool} (e : PyExc) :
    KeepsSettled E s strict (M.raise e : M (Obj δ ω) α) := .same fun _ => rfl

theorem KeepsSettled.read' {E : Env δ ω} {s : Str} {strict : Bool} :
    KeepsSettled E s strict (M.read : M (Obj δ ω) (Obj δ ω)) := .same fun _ => rfl

theorem KeepsSettled.forEach {ι : Type} {E : Env δ ω} {s : Str} {strict : Bool} (xs : List ι)
    {f : ι → M (Obj δ ω) Unit} (h : ∀ x, KeepsSettled E s strict (f x)) :
    KeepsSettled E s strict (M.forEach xs f) := by
  induction xs with
  | nil => exact .pure' ()
  | cons x xs ih => rw [M.forEach_cons]; exact (h x).bind fun _ => ih

theorem parseOwner_apply (E : Env δ ω) (n : Nat) (t : Str) (force : Bool) (o : Obj δ ω) :
    parseOwner E n t force o =
      if t ∉ o.checked ∨ force = true then
        match parseSection E n t true true { o with checked := setAdd o.checked t } with
        | (.ok _, o') => (.ok (), o')
        | (.exc e, o') => (.exc e, o')
        | (.diverge, o') => (.diverge, o')
      else (.ok (), o) := by
  unfold parseOwner
  rw [M.read_bind]
  split
  · rw [M.modify_bind, M.bind_def]
    generalize parseSection E n t true true _ = x
    obtain ⟨r, o'⟩ := x
    cases r <;> rfl
  · rfl

theorem KeepsSettled.parseOwner {E : Env δ ω} {s : Str} {strict : Bool} (n : Nat) (t : Str) (force : Bool)
    (ht : t = s → strict = true) : KeepsSettled E s strict (parseOwner E n t force) := by
  intro o ho hs
  rw [parseOwner_apply] at hs ⊢
  by_cases hc : t ∉ o.checked ∨ force = true
  · rw [if_pos hc] at hs ⊢
    have key : ∀ x : Out δ × Obj δ ω, (match x with
          | (.ok _, o') => ((Out.ok (), o') : Out Unit × Obj δ ω)
          | (.exc e, o') => (.exc e, o')
          | (.diverge, o') => (.diverge, o')).2 = x.2 := by
      rintro ⟨r', o'⟩
      cases r' <;> rfl
    rw [key]
    by_cases hts : t = s
    · -- a parse of `s` itself: it does not matter whether `s` is marked before
      subst hts
      have hsucc : ∃ r, (parseSection E n t true true { o with checked := setAdd o.checked t }).1 = .ok r := by
        obtain ⟨a, ha⟩ := hs (ht rfl)
        generalize parseSection E n t true true _ = x at ha ⊢
        obtain ⟨r', o'⟩ := x
        cases r' with
        | ok r => exact ⟨r, rfl⟩
        | exc e => cases ha
        | diverge => cases ha
      have hs0 : t ≠ [] := by
        rintro rfl
        obtain ⟨r, hr⟩ := hsucc
        cases hr
      have hsame : parseSection E n t true true { o with checked := setAdd o.checked t } =
          parseSection E n t true true o := by
        rw [parseSection_apply E n hs0, parseSection_apply E n hs0]
        have : startCore E t { o with checked := setAdd o.checked t }.toCore = startCore E t o.toCore := by
          simp only [startCore]
          congr 1
          simp only [setAdd]
          split <;> simp_all
        rw [this]
      rw [hsame] at hsucc ⊢
      exact settled_parseSection ho (fun _ => rfl) (fun _ => hsucc)
    · refine settled_parseSection ?_ (fun _ => rfl) (fun h => absurd h hts)
      have hst : s ≠ t := fun e => hts e.symm
      refine ⟨fun h => ho.1 ?_, fun h => ho.2 (fun hx => h ?_)⟩
      · have := (mem_setAdd o.checked t s).mp h
        rcases this with h | h
        · exact absurd h hst
        · exact h
      · exact (mem_setAdd o.checked t s).mpr (.inr hx)
  · rw [if_neg hc]; exact ho

theorem KeepsSettled.hasSectionNoParse {E : Env δ ω} {s : Str} {strict : Bool} (t : Str) :
    KeepsSettled E s strict (hasSectionNoParse t) := .same fun _ => rfl

theorem KeepsSettled.edHasSection {E : Env δ ω} {s : Str} {strict : Bool} (n : Nat) (t : Str)
    (ht : t = s → strict = true) : KeepsSettled E s strict (edHasSection E n t) := by
  unfold CPE.edHasSection
  split
  · refine KeepsSettled.read'.bind fun o => ?_
    split
    · exact (KeepsSettled.parseOwner n t false ht).bind fun _ => .hasSectionNoParse t
    · exact .hasSectionNoParse t
  · exact .hasSectionNoParse t

theorem edData_same (t : Str) (o : Obj δ ω) : (edData t o).2 = o := by
  unfold edData
  rw [M.read_bind]
  cases Dict.get? o.data t <;> rfl

theorem KeepsSettled.edData {E : Env δ ω} {s : Str} {strict : Bool} (t : Str) :
    KeepsSettled E s strict (edData t) := .same (edData_same t)

theorem KeepsSettled.edOptions {E : Env δ ω} {s : Str} {strict : Bool} (n : Nat) (t : Str)
    (ht : t = s → strict = true) : KeepsSettled E s strict (edOptions E n t) := by
  refine (KeepsSettled.edHasSection n t ht).bind fun b => ?_
  split
  · exact .edData t
  · exact .raise' _

theorem KeepsSettled.edHasOption {E : Env δ ω} {s : Str} {strict : Bool} (n : Nat) (t k : Str)
    (ht : t = s → strict = true) : KeepsSettled E s strict (edHasOption E n t k) :=
  (KeepsSettled.parseOwner n t false ht).bind fun _ => .same fun _ => rfl

theorem KeepsSettled.edGet {E : Env δ ω} {s : Str} {strict : Bool} (n : Nat) (t : Str)
    (ht : t = s → strict = true) : KeepsSettled E s strict (edGet E n t) := by
  refine (KeepsSettled.parseOwner n t false ht).bind fun _ => (KeepsSettled.edHasSection n t ht).bind fun b => ?_
  split
  · exact .edData t
  · exact .raise' _

theorem KeepsSettled.edGetOption {E : Env δ ω} {s : Str} {strict : Bool} (n : Nat) (t k : Str)
    (ht : t = s → strict = true) : KeepsSettled E s strict (edGetOption E n t k) := by
  refine (KeepsSettled.parseOwner n t false ht).bind fun _ => (KeepsSettled.edHasSection n t ht).bind fun b => ?_
  split
  · refine (KeepsSettled.edHasOption n t k ht).bind fun h => ?_
    split
    · refine (KeepsSettled.edData t).bind fun d => ?_
      cases Dict.get? d k with
      | none => exact .raise' _
      | some v => exact .pure' _
    · exact .raise' _
  · exact .raise' _

theorem KeepsSettled.event {E : Env δ ω} {s : Str} {strict : Bool} (ev : Event) (e : PyExc) :
    KeepsSettled E s strict (liftW (ecEvent E ev e)) := by
  intro o ho _
  exact ho

theorem KeepsSettled.assertSection {E : Env δ ω} {s : Str} {strict : Bool} (n : Nat) (ops files : List Str) (t : Str)
    (b : Bool) (ht : t = s → strict = true) : KeepsSettled E s strict (assertSection E n ops files t b) := by
  refine (KeepsSettled.edGet n t ht).bind fun d => ?_
  split
  · exact .pure' _
  · dsimp only
    split
    · exact (KeepsSettled.event _ _).bind fun _ => .pure' _
    · exact .pure' _

theorem KeepsSettled.assertLoop {E : Env δ ω} {s : Str} (n : Nat) (ops files : List Str) (l : List Str) :
    KeepsSettled E s true (assertLoop E n ops files l) := by
  induction l with
  | nil => exact .pure' _
  | cons t l ih =>
    exact (KeepsSettled.assertSection n ops files t false (fun _ => rfl)).bind fun _ => ih.bind fun _ => .pure' _

end CPE
