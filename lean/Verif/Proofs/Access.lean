import Verif.Proofs.Closed
/-
Lazy access: what the accessors do on a section that was parsed before, and history invariants.
-/
namespace CPE
open Spec
variable {δ ω : Type} {E : Env δ ω} {n : Nat} {s : Str} {o o' : Obj δ ω}

/-! ### accessors on a checked section -/

theorem parseOwner_checked (h : s ∈ o.checked) : parseOwner E n s false o = (.ok (), o) := by
  rw [parseOwner_apply, if_neg (by simp [h])]

theorem edHasSection_checked (h : s ∈ o.checked) : edHasSection E n s o = (.ok (Dict.mem o.data s), o) := by
  unfold edHasSection
  split
  · rw [M.read_bind, if_neg (by simpa using h)]; rfl
  · rfl

theorem edHasSection_missing (h : E.cfg.hasSection s = false) : edHasSection E n s o = (.ok (Dict.mem o.data s), o) := by
  unfold edHasSection
  rw [if_neg (by simp [h])]; rfl

/-- What the dict of `s` gives to the client. -/
def lookup (s : Str) (o : Obj δ ω) : Out Options :=
  match Dict.get? o.data s with
  | some d => .ok d
  | none => .exc .keyError

theorem edData_apply : edData s o = (lookup s o, o) := by
  unfold edData lookup
  rw [M.read_bind]
  cases Dict.get? o.data s <;> rfl

theorem ifmem_edData (b : Bool) (hb : b = Dict.mem o.data s) :
    (if b = true then edData s else M.raise .keyError) o = (lookup s o, o) := by
  subst hb
  by_cases h : Dict.mem o.data s = true
  · rw [if_pos h, edData_apply]
  · rw [if_neg h]
    simp only [lookup, Dict.mem, Option.isSome_iff_exists, not_exists] at h ⊢
    cases hx : Dict.get? o.data s with
    | none => rfl
    | some d => exact absurd hx (h d)

theorem edGet_checked (h : s ∈ o.checked) : edGet E n s o = (lookup s o, o) := by
  unfold edGet
  rw [M.bind_ok (parseOwner_checked h), M.bind_ok (edHasSection_checked h)]
  exact ifmem_edData _ rfl

theorem edOptions_checked (h : s ∈ o.checked) : edOptions E n s o = (lookup s o, o) := by
  unfold edOptions
  rw [M.bind_ok (edHasSection_checked h)]
  exact ifmem_edData _ rfl

theorem edOptions_missing (h : E.cfg.hasSection s = false) : edOptions E n s o = (lookup s o, o) := by
  unfold edOptions
  rw [M.bind_ok (edHasSection_missing h)]
  exact ifmem_edData _ rfl

theorem edHasOption_checked (h : s ∈ o.checked) (k : Str) :
    edHasOption E n s k o = (.ok (match Dict.get? o.data s with | none => false | some d => Dict.mem d k), o) := by
  unfold edHasOption
  rw [M.bind_ok (parseOwner_checked h), M.read_bind]
  rfl

theorem edGetOption_checked (h : s ∈ o.checked) (k : Str) :
    edGetOption E n s k o =
      (match Dict.get? o.data s with
        | none => .exc .keyError
        | some d => match Dict.get? d k with
          | none => .exc .keyError
          | some v => .ok v, o) := by
  unfold edGetOption
  rw [M.bind_ok (parseOwner_checked h), M.bind_ok (edHasSection_checked h)]
  cases hd : Dict.get? o.data s with
  | none => simp only [Dict.mem, hd]; rfl
  | some d =>
    simp only [Dict.mem, hd, Option.isSome_some, if_true]
    rw [M.bind_ok (edHasOption_checked h k), hd]
    dsimp only
    cases hk : Dict.get? d k with
    | none => simp only [Dict.mem, hk]; rfl
    | some v =>
      simp only [Dict.mem, hk, Option.isSome_some, if_true]
      rw [M.bind_ok (a := d) (w' := o) (by rw [edData_apply, lookup, hd]), hk]
      rfl

/-! ### the first access -/

/-- `_parse_owner_section` marks the section, whatever happens. -/
theorem parseOwner_marks (E : Env δ ω) (n : Nat) (s : Str) (force : Bool) (o : Obj δ ω) :
    s ∈ (parseOwner E n s force o).2.checked := by
  rw [parseOwner_apply]
  split
  · have hm : s ∈ (parseSection E n s true true { o with checked := setAdd o.checked s }).2.checked := by
      by_cases hs : s = []
      · subst hs
        rw [parseSection_nil]
        exact (mem_setAdd _ _ _).mpr (.inl rfl)
      · rw [parseSection_checked E n hs]
        exact (mem_setAdd _ _ _).mpr (.inl rfl)
    generalize parseSection E n s true true _ = x at hm ⊢
    obtain ⟨r', o'⟩ := x
    cases r' <;> exact hm
  · rename_i h
    simp only [not_or, Classical.not_not] at h
    exact h.1

/-- The parse done by a first access is `parse_section(s)`. -/
theorem parseOwner_first (hs : s ≠ []) (force : Bool) (h : s ∉ o.checked ∨ force = true) :
    parseOwner E n s force o =
      match parseSection E n s true true o with
      | (.ok _, o') => (.ok (), o')
      | (.exc e, o') => (.exc e, o')
      | (.diverge, o') => (.diverge, o') := by
  have hsame : parseSection E n s true true { o with checked := setAdd o.checked s } =
      parseSection E n s true true o := by
    rw [parseSection_apply E n hs, parseSection_apply E n hs]
    have : startCore E s { o with checked := setAdd o.checked s }.toCore = startCore E s o.toCore := by
      simp only [startCore]
      congr 1
      simp only [setAdd]
      split <;> simp_all
    rw [this]
  rw [parseOwner_apply, if_pos h, hsame]
  rfl

/-- `get(s)`: the parse if it is the first access, then the lookup. -/
theorem edGet_apply (E : Env δ ω) (n : Nat) (s : Str) (o : Obj δ ω) :
    edGet E n s o = match parseOwner E n s false o with
      | (.ok _, o') => (lookup s o', o')
      | (.exc e, o') => (.exc e, o')
      | (.diverge, o') => (.diverge, o') := by
  have hm := parseOwner_marks E n s false o
  have hg : edGet E n s = (parseOwner E n s false >>= fun _ => edHasSection E n s >>= fun b =>
      if b = true then edData s else M.raise .keyError) := rfl
  rw [hg, M.bind_def]
  generalize parseOwner E n s false o = x at hm ⊢
  obtain ⟨r', o'⟩ := x
  cases r' with
  | ok u =>
    dsimp only at hm ⊢
    rw [M.bind_ok (edHasSection_checked hm)]
    exact ifmem_edData _ rfl
  | exc e => rfl
  | diverge => rfl

/-- For a section of the file `has_section` parses like `get` does. -/
theorem edHasSection_apply (hf : E.cfg.hasSection s = true) (o : Obj δ ω) :
    edHasSection E n s o = match parseOwner E n s false o with
      | (.ok _, o') => (.ok (Dict.mem o'.data s), o')
      | (.exc e, o') => (.exc e, o')
      | (.diverge, o') => (.diverge, o') := by
  unfold edHasSection
  rw [if_pos hf, M.read_bind]
  split
  · rw [M.bind_def]
    generalize parseOwner E n s false o = x
    obtain ⟨r', o'⟩ := x
    cases r' <;> rfl
  · rename_i h
    rw [parseOwner_checked (Classical.not_not.mp h)]
    rfl

theorem edOptions_apply (hf : E.cfg.hasSection s = true) (o : Obj δ ω) : edOptions E n s o = edGet E n s o := by
  rw [edGet_apply]
  unfold edOptions
  rw [M.bind_def, edHasSection_apply hf]
  generalize parseOwner E n s false o = x
  obtain ⟨r', o'⟩ := x
  cases r' with
  | ok u => exact ifmem_edData _ rfl
  | exc e => rfl
  | diverge => rfl

theorem edHasOption_apply (E : Env δ ω) (n : Nat) (s k : Str) (o : Obj δ ω) :
    edHasOption E n s k o = match parseOwner E n s false o with
      | (.ok _, o') => (.ok (match Dict.get? o'.data s with | none => false | some d => Dict.mem d k), o')
      | (.exc e, o') => (.exc e, o')
      | (.diverge, o') => (.diverge, o') := by
  unfold edHasOption
  rw [M.bind_def]
  generalize parseOwner E n s false o = x
  obtain ⟨r', o'⟩ := x
  cases r' <;> rfl

theorem edGetOption_apply (E : Env δ ω) (n : Nat) (s k : Str) (o : Obj δ ω) :
    edGetOption E n s k o = match parseOwner E n s false o with
      | (.ok _, o') => (match Dict.get? o'.data s with
        | none => .exc .keyError
        | some d => match Dict.get? d k with
          | none => .exc .keyError
          | some v => .ok v, o')
      | (.exc e, o') => (.exc e, o')
      | (.diverge, o') => (.diverge, o') := by
  have hm := parseOwner_marks E n s false o
  have hg : edGetOption E n s k = (parseOwner E n s false >>= fun _ => edHasSection E n s >>= fun b =>
      if b = true then (edHasOption E n s k >>= fun h =>
        if h = true then (edData s >>= fun d => match Dict.get? d k with
          | some v => pure v
          | none => M.raise .keyError) else M.raise .keyError) else M.raise .keyError) := rfl
  rw [hg, M.bind_def]
  generalize hx : parseOwner E n s false o = x at hm ⊢
  obtain ⟨r', o'⟩ := x
  cases r' with
  | ok u =>
    dsimp only at hm ⊢
    have := edGetOption_checked (E := E) (n := n) hm k
    rw [hg, M.bind_ok (parseOwner_checked hm)] at this
    exact this
  | exc e => rfl
  | diverge => rfl

/-! ### invariants of all histories -/

/-- `P` is kept by what the operations are made of, of the direct parses those that `A` admits. -/
structure ObjInv (E : Env δ ω) (n : Nat) (A : Str → Bool → Bool → Prop) (P : Obj δ ω → Prop) : Prop where
  full : ∀ s, A s true true
  parse : ∀ s i f o, A s i f → P o → P (parseSection E n s i f o).2
  mark : ∀ s o, P o → P { o with checked := setAdd o.checked s }
  event : ∀ ev e o, P o → P (liftW (ecEvent E ev e) o).2
  write : ∀ s d o, P o → (Dict.keys d).Nodup → P { o with data := Dict.set o.data s d }
  put : ∀ s k v o, P o → P { o with data := Dict.set o.data s (Dict.set ((Dict.get? o.data s).getD []) k v) }

/-- `m` keeps `P`. -/
def Keeps {α : Type} (P : Obj δ ω → Prop) (m : M (Obj δ ω) α) : Prop := ∀ o, P o → P (m o).2

theorem Keeps.bind {α β : Type} {P : Obj δ ω → Prop} {m : M (Obj δ ω) α} {g : α → M (Obj δ ω) β}
    (h : Keeps P m) (hg : ∀ a, Keeps P (g a)) : Keeps P (m >>= g) := by
  intro o ho
  have h1 := h o ho
  rw [M.bind_def]
  cases hm : m o with
  | mk x o' =>
    rw [hm] at h1
    cases x with
    | ok a => exact hg a o' h1
    | exc e => exact h1
    | diverge => exact h1

theorem Keeps.same {α : Type} {P : Obj δ ω → Prop} {m : M (Obj δ ω) α} (h : ∀ o, (m o).2 = o) : Keeps P m := by
  intro o ho; rw [h o]; exact ho

theorem Keeps.forEach {ι : Type} {P : Obj δ ω → Prop} (xs : List ι) {g : ι → M (Obj δ ω) Unit} (h : ∀ x, Keeps P (g x)) :
    Keeps P (M.forEach xs g) := by
  induction xs with
  | nil => exact .same fun _ => rfl
  | cons x xs ih => rw [M.forEach_cons]; exact (h x).bind fun _ => ih

section
variable {A : Str → Bool → Bool → Prop} {P : Obj δ ω → Prop} (hP : ObjInv E n A P)
include hP

theorem ObjInv.parseOwner (t : Str) (force : Bool) : Keeps P (parseOwner E n t force) := by
  intro o ho
  rw [parseOwner_apply]
  split
  · have := hP.parse t true true _ (hP.full t) (hP.mark t o ho)
    generalize parseSection E n t true true _ = x at this ⊢
    obtain ⟨r', o'⟩ := x
    cases r' <;> exact this
  · exact ho

theorem ObjInv.hasSection (t : Str) : Keeps P (edHasSection E n t) := by
  unfold edHasSection
  split
  · refine (Keeps.same fun _ => rfl : Keeps P M.read).bind fun o => ?_
    split
    · exact (hP.parseOwner t false).bind fun _ => .same fun _ => rfl
    · exact .same fun _ => rfl
  · exact .same fun _ => rfl

theorem ObjInv.options (t : Str) : Keeps P (edOptions E n t) := by
  refine (hP.hasSection t).bind fun b => ?_
  split
  · exact .same (edData_same t)
  · exact .same fun _ => rfl

theorem ObjInv.hasOption (t k : Str) : Keeps P (edHasOption E n t k) :=
  (hP.parseOwner t false).bind fun _ => .same fun _ => rfl

theorem ObjInv.get (t : Str) : Keeps P (edGet E n t) := by
  refine (hP.parseOwner t false).bind fun _ => (hP.hasSection t).bind fun b => ?_
  split
  · exact .same (edData_same t)
  · exact .same fun _ => rfl

theorem ObjInv.getOption (t k : Str) : Keeps P (edGetOption E n t k) := by
  refine (hP.parseOwner t false).bind fun _ => (hP.hasSection t).bind fun b => ?_
  split
  · refine (hP.hasOption t k).bind fun h => ?_
    split
    · refine (Keeps.same (edData_same t) : Keeps P _).bind fun d => ?_
      cases Dict.get? d k <;> exact .same fun _ => rfl
    · exact .same fun _ => rfl
  · exact .same fun _ => rfl

theorem ObjInv.assertSection (ops files : List Str) (t : Str) (b : Bool) : Keeps P (assertSection E n ops files t b) := by
  refine (hP.get t).bind fun d => ?_
  split
  · exact .same fun _ => rfl
  · dsimp only
    split
    · exact (show Keeps P (liftW (ecEvent E .serious .valueError)) from fun o ho => hP.event _ _ o ho).bind
        fun _ => .same fun _ => rfl
    · exact .same fun _ => rfl

theorem ObjInv.assertLoop (ops files l : List Str) : Keeps P (assertLoop E n ops files l) := by
  induction l with
  | nil => exact .same fun _ => rfl
  | cons t l ih => exact (hP.assertSection ops files t false).bind fun _ => ih.bind fun _ => .same fun _ => rfl

theorem ObjInv.sections (a : SectionsArg) : Keeps P (edSections E n a) := by
  cases a with
  | no => exact .same fun _ => rfl
  | yes => exact (Keeps.forEach _ fun t => hP.parseOwner t false).bind fun _ => .same fun _ => rfl
  | force => exact (Keeps.forEach _ fun t => hP.parseOwner t true).bind fun _ => .same fun _ => rfl
  | otherStr => exact .same fun _ => rfl
  | otherType => exact .same fun _ => rfl

theorem ObjInv.addSection (t : Str) (b : Bool) : Keeps P (edAddSection (δ := δ) (ω := ω) t b) := by
  intro o ho
  unfold edAddSection
  change P (if b = true ∨ Dict.mem o.data t = false then { o with data := Dict.set o.data t [] } else o)
  split
  · exact hP.write t [] o ho (by simp [Dict.keys])
  · exact ho

theorem ObjInv.set (t k : Str) (v : Option Str) : Keeps P (edSet E n t k v) := by
  refine (hP.hasSection t).bind fun b => ?_
  have hput : Keeps P (M.modify fun o : Obj δ ω =>
      { o with data := Dict.set o.data t (Dict.set ((Dict.get? o.data t).getD []) k v) }) :=
    fun o ho => hP.put t k v o ho
  split
  · exact (hP.addSection t false).bind fun _ => hput
  · exact hput

theorem ObjInv.exec (op : EdOp) (hop : ∀ s i f, op = .parseSection s i f → A s i f) : Keeps P (op.exec E n) := by
  have done : ∀ {α : Type} (v : α), Keeps P (pure v : M (Obj δ ω) α) := fun v => .same fun _ => rfl
  cases op with
  | parseSection s i f => exact (show Keeps P (CPE.parseSection E n s i f) from fun o ho => hP.parse s i f o (hop s i f rfl) ho).bind fun _ => done _
  | parseAll => exact ((hP.sections .yes).bind fun _ => done ()).bind fun _ => done _
  | keys => exact done _
  | len => exact done _
  | sections a => exact (hP.sections a).bind fun _ => done _
  | hasSection s => exact (hP.hasSection s).bind fun _ => done _
  | hasSectionNoParse s => exact (show Keeps P (CPE.hasSectionNoParse s) from .same fun _ => rfl).bind fun _ => done _
  | options s => exact (hP.options s).bind fun _ => done _
  | getItem s => exact (hP.options s).bind fun _ => done _
  | hasOption s k => exact (hP.hasOption s k).bind fun _ => done _
  | get s => exact (hP.get s).bind fun _ => done _
  | getOption s k => exact (hP.getOption s k).bind fun _ => done _
  | itemsAll =>
    exact ((Keeps.forEach _ fun t => hP.parseOwner t false).bind fun _ =>
      (show Keeps P M.read from .same fun _ => rfl).bind fun _ => done _).bind fun _ => done _
  | items s => exact (hP.options s).bind fun _ => done _
  | assertSection s b => exact (hP.assertSection [] [] s b).bind fun _ => done _
  | assertFile =>
    refine (show Keeps P (assertFile E n [] []) from (hP.assertLoop [] [] _).bind fun b => ?_).bind fun _ => done _
    split
    · exact (show Keeps P (liftW (ecEvent E .serious .valueError)) from fun o ho => hP.event _ _ o ho).bind fun _ => done _
    · exact done _
  | addSection s b => exact (hP.addSection s b).bind fun _ => done _
  | set s k v => exact (hP.set s k v).bind fun _ => done _

theorem ObjInv.run (ops : List EdOp) (hops : ∀ s i f, .parseSection s i f ∈ ops → A s i f) (o : Obj δ ω) (ho : P o) :
    P (EdOp.run E n ops o) := by
  induction ops generalizing o with
  | nil => exact ho
  | cons op ops ih =>
    exact ih (fun s i f h => hops s i f (.tail _ h)) _ (hP.exec op (fun s i f h => hops s i f (h ▸ .head _)) o ho)

end

/-! ### settled sections over histories -/

/-- Operations that edit the stored data of `s` directly. -/
def EdOp.edits (s : Str) : EdOp → Bool
  | .set t _ _ => t == s
  | .addSection t force => force && t == s
  | .parseSection t init _ => !init && t == s
  | _ => false

/-- Operations that may parse `s`. -/
def EdOp.mayParse (s : Str) : EdOp → Bool
  | .parseSection t _ _ | .hasSection t | .options t | .getItem t | .hasOption t _ | .get t | .getOption t _
  | .items t | .assertSection t _ | .set t _ _ => t == s
  | .parseAll | .sections .yes | .sections .force | .itemsAll | .assertFile => true
  | _ => false

theorem KeepsSettled.exec {E : Env δ ω} {s : Str} (n : Nat) (op : EdOp) (he : op.edits s = false) :
    KeepsSettled E s (op.mayParse s) (op.exec E n) := by
  have ts : ∀ t : Str, t = s → (t == s) = true := fun t h => by simp [h]
  cases op with
  | parseSection t i f =>
    refine KeepsSettled.bind ?_ fun _ => .pure' _
    intro o ho hs
    simp only [EdOp.edits, EdOp.mayParse] at he hs
    exact settled_parseSection ho (fun h => by subst h; simpa using he) (fun h => hs (by simp [h]))
  | parseAll =>
    have h : KeepsSettled E s true (edSections E n .yes) :=
      (KeepsSettled.forEach _ fun t => .parseOwner n t false (fun _ => rfl)).bind fun _ => .pure' _
    exact (h.bind fun _ => .pure' ()).bind fun _ => .pure' _
  | keys => exact .pure' _
  | len => exact .pure' _
  | sections a =>
    cases a with
    | no => exact .bind (.pure' _) fun _ => .pure' _
    | yes => exact ((KeepsSettled.forEach _ fun t => .parseOwner n t false (fun _ => rfl)).bind fun _ => .pure' _).bind fun _ => .pure' _
    | force => exact ((KeepsSettled.forEach _ fun t => .parseOwner n t true (fun _ => rfl)).bind fun _ => .pure' _).bind fun _ => .pure' _
    | otherStr => exact .bind (.raise' _) fun _ => .pure' _
    | otherType => exact .bind (.raise' _) fun _ => .pure' _
  | hasSection t => exact (KeepsSettled.edHasSection n t (ts t)).bind fun _ => .pure' _
  | hasSectionNoParse t => exact (KeepsSettled.hasSectionNoParse t).bind fun _ => .pure' _
  | options t => exact (KeepsSettled.edOptions n t (ts t)).bind fun _ => .pure' _
  | getItem t => exact (KeepsSettled.edOptions n t (ts t)).bind fun _ => .pure' _
  | hasOption t k => exact (KeepsSettled.edHasOption n t k (ts t)).bind fun _ => .pure' _
  | get t => exact (KeepsSettled.edGet n t (ts t)).bind fun _ => .pure' _
  | getOption t k => exact (KeepsSettled.edGetOption n t k (ts t)).bind fun _ => .pure' _
  | itemsAll =>
    exact ((KeepsSettled.forEach _ fun t => .parseOwner n t false (fun _ => rfl)).bind fun _ =>
      KeepsSettled.read'.bind fun _ => .pure' _).bind fun _ => .pure' _
  | items t => exact (KeepsSettled.edOptions n t (ts t)).bind fun _ => .pure' _
  | assertSection t b => exact (KeepsSettled.assertSection n [] [] t b (ts t)).bind fun _ => .pure' _
  | assertFile =>
    refine KeepsSettled.bind ((KeepsSettled.assertLoop n [] [] _).bind fun b => ?_) fun _ => .pure' _
    split
    · exact (KeepsSettled.event _ _).bind fun _ => .pure' _
    · exact .pure' _
  | addSection t b =>
    refine KeepsSettled.bind ?_ fun _ => .pure' _
    intro o ho _
    change Settled E s (if b = true ∨ Dict.mem o.data t = false then { o with data := Dict.set o.data t [] } else o)
    split
    · rename_i hc
      simp only [EdOp.edits] at he
      refine ⟨fun h => ?_, fun h => ?_⟩
      · obtain ⟨d, h1, h2⟩ := ho.1 h
        refine ⟨d, ?_, h2⟩
        by_cases hts : s = t
        · subst hts
          rcases hc with hc | hc
          · subst hc; simp at he
          · simp [Dict.mem, h1] at hc
        · change Dict.get? (Dict.set o.data t []) s = some d
          rw [Dict.get?_set_ne _ _ hts]; exact h1
      · by_cases hts : s = t
        · subst hts
          exact .inr (Dict.get?_set_self _ _ _)
        · change Dict.get? (Dict.set o.data t []) s = none ∨ Dict.get? (Dict.set o.data t []) s = some []
          rw [Dict.get?_set_ne _ _ hts]; exact ho.2 h
    · exact ho
  | set t k v =>
    simp only [EdOp.edits, beq_eq_false_iff_ne, ne_eq] at he
    have hst : s ≠ t := fun h => he h.symm
    refine KeepsSettled.bind ((KeepsSettled.edHasSection n t (ts t)).bind fun b => ?_) fun _ => .pure' _
    have put : ∀ d : Obj δ ω → Options, KeepsSettled E s (EdOp.mayParse s (.set t k v)) (M.modify fun o : Obj δ ω =>
        { o with data := Dict.set o.data t (d o) }) := by
      intro d o ho _
      refine ⟨fun h => ?_, fun h => ?_⟩
      · obtain ⟨d', h1, h2⟩ := ho.1 h
        refine ⟨d', ?_, h2⟩
        change Dict.get? (Dict.set o.data t (d o)) s = some d'
        rw [Dict.get?_set_ne _ _ hst]; exact h1
      · change Dict.get? (Dict.set o.data t (d o)) s = none ∨ Dict.get? (Dict.set o.data t (d o)) s = some []
        rw [Dict.get?_set_ne _ _ hst]; exact ho.2 h
    split
    · refine KeepsSettled.bind ?_ fun _ => put _
      intro o ho _
      change Settled E s (if false = true ∨ Dict.mem o.data t = false then { o with data := Dict.set o.data t [] } else o)
      split
      · exact put (fun _ => []) o ho (fun _ => ⟨(), rfl⟩)
      · exact ho
    · exact put _

end CPE
