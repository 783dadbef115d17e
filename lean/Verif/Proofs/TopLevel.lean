import Verif.Model.TopLevel
import Verif.Spec.TopLevel
import Verif.Props.Unrolled
import Verif.Proofs.EnvVars
/-
Lemmas for the top level files: paths as texts, and one check on loaded data.
-/
namespace CPE.KW
open CPE CPE.SetEnv CPE.Spec CPE.Props

/-! ### paths -/

theorem isAbs_iff (s : Str) : IsAbs s ↔ s.head? = some '/' := by
  cases s with
  | nil => simp [IsAbs]
  | cons c s => simp [IsAbs]

theorem root_iff (s r : Str) : Root s r ↔ r = (PPath.ofStr s).root := by
  unfold PPath.ofStr
  dsimp only
  constructor
  · intro h
    cases h with
    | relative h => rw [if_pos (by rw [isAbs_iff] at h; exact h)]
    | one h => rw [if_neg (by simp), if_neg (by rw [isAbs_iff] at h; simp [h])]
    | two h => rw [if_neg (by simp), if_pos (by rw [isAbs_iff] at h; simp [h])]
    | many => rw [if_neg (by simp), if_neg (by simp)]
  · rintro rfl
    split
    · rename_i h; exact .relative (by rwa [isAbs_iff])
    · rename_i h
      cases s with
      | nil => simp at h
      | cons a s =>
        simp at h
        subst h
        split
        · rename_i h
          cases s with
          | nil => simp at h
          | cons b s =>
            simp at h
            obtain ⟨rfl, h⟩ := h
            exact .two (by rwa [isAbs_iff])
        · rename_i h
          cases s with
          | nil => exact .one (by simp [IsAbs])
          | cons b s =>
            simp at h
            by_cases hb : b = '/'
            · subst hb
              cases s with
              | nil => simp at h
              | cons d s => simp at h; subst h; exact .many
            · exact .one (by simp [IsAbs, hb])

theorem names_iff (s : Str) (ns : List Str) : Names s ns ↔ ns = (PPath.ofStr s).parts := by
  unfold PPath.ofStr
  dsimp only
  constructor
  · rintro ⟨ps, hne, rfl, hp, rfl⟩
    rw [splitChar_joinStr hne hp]
  · rintro rfl
    exact ⟨splitChar '/' s, splitChar_ne_nil _ _, joinStr_splitChar _ _, splitChar_not_mem _ _, rfl⟩

theorem normal_iff (s t : Str) : Normal s t ↔ t = (PPath.ofStr s).toStr := by
  constructor
  · rintro ⟨r, ns, h1, h2, rfl⟩
    rw [root_iff] at h1; rw [names_iff] at h2
    subst h1; subst h2; rfl
  · rintro rfl
    exact ⟨_, _, (root_iff ..).2 rfl, (names_iff ..).2 rfl, rfl⟩

/-- What is stored for the value `v` in the file `ini`. -/
def place (ini v : Str) : Str :=
  if (PPath.ofStr v).isAbsolute = true then v else ((PPath.ofStr ini).parent.join (PPath.ofStr v)).toStr

theorem isAbsolute_iff (v : Str) : (PPath.ofStr v).isAbsolute = true ↔ IsAbs v := by
  unfold PPath.isAbsolute PPath.ofStr
  rw [isAbs_iff]
  dsimp only
  split
  · rename_i h; simp [h]
  · rename_i h
    simp at h
    split <;> simp [h]

theorem pointsTo_iff (ini v q : Str) : PointsTo ini v q ↔ q = place ini v := by
  unfold PointsTo place
  by_cases h : IsAbs v
  · rw [if_pos ((isAbsolute_iff v).2 h)]
    simp [h]
  · rw [if_neg (by rwa [isAbsolute_iff])]
    have hr : (PPath.ofStr v).root = [] := ((root_iff v []).1 (.relative h)).symm
    constructor
    · rintro (⟨h', _⟩ | ⟨_, r, ns, vs, h1, h2, h3, rfl⟩)
      · exact absurd h' h
      · rw [root_iff] at h1; rw [names_iff] at h2 h3
        subst h1; subst h2; subst h3
        unfold PPath.join
        rw [if_neg (by simp [hr])]
        rfl
    · rintro rfl
      refine .inr ⟨h, _, _, _, (root_iff ..).2 rfl, (names_iff ..).2 rfl, (names_iff ..).2 rfl, ?_⟩
      unfold PPath.join
      rw [if_neg (by simp [hr])]
      rfl

theorem there_iff (fs : FS) (q : Str) : There fs q ↔ pathExists fs q = true := by
  unfold There pathExists
  simp [normal_iff]

theorem goodPath_iff (fs : FS) (ini : Str) (must : Bool) (x : Option (Option Str)) :
    GoodPath fs ini must x ↔ ∃ v, x = some (some v) ∧ v ≠ [] ∧ (must = true → pathExists fs (place ini v) = true) := by
  unfold GoodPath
  constructor
  · rintro ⟨v, q, h1, h2, h3, h4⟩
    rw [pointsTo_iff] at h3
    subst h3
    exact ⟨v, h1, h2, fun h => (there_iff ..).1 (h4 h)⟩
  · rintro ⟨v, h1, h2, h4⟩
    exact ⟨v, _, h1, h2, (pointsTo_iff ..).2 rfl, fun h => (there_iff ..).2 (h4 h)⟩

theorem toStr_abs {p : PPath} (h : ∃ r, p.root = '/' :: r) : IsAbs p.toStr := by
  obtain ⟨r, h⟩ := h
  unfold PPath.toStr
  rw [if_neg (by simp [h]), h]
  exact ⟨_, rfl⟩

theorem root_abs {s : Str} (h : IsAbs s) : ∃ r, (PPath.ofStr s).root = '/' :: r := by
  rw [isAbs_iff] at h
  unfold PPath.ofStr
  dsimp only
  rw [if_neg (by simp [h])]
  split <;> exact ⟨_, rfl⟩

/-- Below an absolute file every stored path is absolute. -/
theorem place_abs {ini : Str} (h : IsAbs ini) (v : Str) : IsAbs (place ini v) := by
  unfold place
  split
  · rename_i h; exact (isAbsolute_iff v).1 h
  · rename_i h'
    rw [isAbsolute_iff] at h'
    have hr : (PPath.ofStr v).root = [] := ((root_iff v []).1 (.relative h')).symm
    apply toStr_abs
    unfold PPath.join
    rw [if_neg (by simp [hr])]
    exact root_abs h

theorem place_self {ini v : Str} (h : IsAbs v) : place ini v = v := by
  unfold place
  rw [if_pos ((isAbsolute_iff v).2 h)]

/-- A name between slashes. -/
def PlainName (x : Str) : Prop := '/' ∉ x ∧ x ≠ [] ∧ x ≠ ['.']

theorem parts_plain (s : Str) : ∀ x ∈ (PPath.ofStr s).parts, PlainName x := by
  intro x hx
  unfold PPath.ofStr at hx
  dsimp only at hx
  rw [List.mem_filter] at hx
  have := splitChar_not_mem _ _ _ hx.1
  simp at hx
  exact ⟨this, hx.2.1, hx.2.2⟩

theorem join_head {ns : List Str} (h : ∀ x ∈ ns, PlainName x) : ¬ IsAbs (joinStr ['/'] ns) := by
  rw [isAbs_iff]
  cases ns with
  | nil => simp [joinStr]
  | cons x xs =>
    obtain ⟨h1, h2, _⟩ := h x (by simp)
    cases x with
    | nil => exact absurd rfl h2
    | cons c x =>
      simp at h1
      cases xs with
      | nil => simp [joinStr]; exact Ne.symm h1.1
      | cons y ys => rw [joinStr_cons_cons]; simp; exact Ne.symm h1.1

/-- A relative path, written and read again. -/
theorem ofStr_rel {ns : List Str} (h : ∀ x ∈ ns, PlainName x) : PPath.ofStr (PPath.toStr ⟨[], ns⟩) = ⟨[], ns⟩ := by
  unfold PPath.toStr
  by_cases hn : ns = []
  · subst hn; rfl
  · rw [if_neg (by simp [hn])]
    have hr : (PPath.ofStr (joinStr ['/'] ns)).root = [] := ((root_iff _ []).1 (.relative (join_head h))).symm
    have hp : (PPath.ofStr (joinStr ['/'] ns)).parts = ns := by
      unfold PPath.ofStr
      dsimp only
      rw [splitChar_joinStr hn fun e he => (h e he).1, List.filter_eq_self]
      intro x hx
      simp [(h x hx).2.1, (h x hx).2.2]
    show PPath.ofStr (joinStr ['/'] ns) = _
    cases hx : PPath.ofStr (joinStr ['/'] ns) with
    | mk r ps => rw [hx] at hr hp; dsimp only at hr hp; rw [hr, hp]

/-- What is stored below a relative file. -/
theorem place_rel {ini v : Str} (h : ¬ IsAbs ini) (hv : ¬ IsAbs v) :
    place ini v = PPath.toStr ⟨[], (PPath.ofStr ini).parts.dropLast ++ (PPath.ofStr v).parts⟩ := by
  unfold place
  have hr : (PPath.ofStr v).root = [] := ((root_iff v []).1 (.relative hv)).symm
  have hi : (PPath.ofStr ini).root = [] := ((root_iff ini []).1 (.relative h)).symm
  rw [if_neg (by rwa [isAbsolute_iff])]
  unfold PPath.join
  rw [if_neg (by simp [hr])]
  unfold PPath.parent
  dsimp only
  rw [hi]

theorem plain_append {a b : Str} : ∀ x ∈ (PPath.ofStr a).parts.dropLast ++ (PPath.ofStr b).parts, PlainName x := by
  intro x hx
  rcases List.mem_append.1 hx with h | h
  · exact parts_plain a x (List.dropLast_subset _ h)
  · exact parts_plain b x h

theorem root_nil_iff (s : Str) : Root s [] ↔ ¬ IsAbs s := by
  constructor
  · generalize hr : ([] : Str) = r
    intro h
    cases h with
    | relative h => exact h
    | _ => cases hr
  · exact .relative

theorem place_rel_notAbs {ini v : Str} (h : ¬ IsAbs ini) (hv : ¬ IsAbs v) : ¬ IsAbs (place ini v) := by
  rw [place_rel h hv]
  rw [← root_nil_iff, root_iff, ofStr_rel plain_append]

/-- Placing a relative value twice. -/
theorem place_rel_twice {ini v : Str} (h : ¬ IsAbs ini) (hv : ¬ IsAbs v) :
    place ini (place ini v) = PPath.toStr ⟨[], (PPath.ofStr ini).parts.dropLast ++
      ((PPath.ofStr ini).parts.dropLast ++ (PPath.ofStr v).parts)⟩ := by
  rw [place_rel h (place_rel_notAbs h hv)]
  congr 2
  rw [place_rel h hv, ofStr_rel plain_append]

/-- The file is absolute, or has no directory. -/
def Steady (ini : Str) : Prop := IsAbs ini ∨ (PPath.ofStr ini).parts.dropLast = []

/-- Then placing twice is placing once. -/
theorem place_steady {ini : Str} (h : Steady ini) (v : Str) : place ini (place ini v) = place ini v := by
  by_cases hv : IsAbs v
  · rw [place_self hv, place_self hv]
  by_cases ha : IsAbs ini
  · exact place_self (place_abs ha v)
  · rcases h with h | h
    · exact absurd h ha
    · rw [place_rel_twice ha hv, place_rel ha hv, h]; rfl

theorem toStr_ne_nil {p : PPath} (h : ∀ x ∈ p.parts, PlainName x) : p.toStr ≠ [] := by
  unfold PPath.toStr
  split
  · simp
  · rename_i hn
    cases hp : p.parts with
    | nil =>
      have : p.root ≠ [] := fun hr => hn ⟨hr, hp⟩
      simp [this]
    | cons x xs =>
      have := (h x (by simp [hp])).2.1
      cases xs with
      | nil => simp [joinStr, this]
      | cons y ys => rw [joinStr_cons_cons]; simp

theorem place_ne_nil {ini v : Str} (hv : v ≠ []) : place ini v ≠ [] := by
  unfold place
  split
  · exact hv
  · apply toStr_ne_nil
    unfold PPath.join
    split
    · exact parts_plain v
    · exact plain_append

/-! ### one check on loaded data -/

variable {n : Nat} {fs : FS} {ini : Str} {c : Cfg} {f f' : Full Unit Unit} {s k : Str}

/-- Section `s` has been read. -/
structure Ready (c : Cfg) (s : Str) (f : Full Unit Unit) : Prop where
  cfg : f.cfg = some c
  inFile : c.hasSection s = true
  checked : s ∈ f.obj.checked
  has : ∃ d, Dict.get? f.obj.data s = some d

/-- `f` with a value stored. -/
def storeIn (f : Full Unit Unit) (s k : Str) (v : Option Str) : Full Unit Unit :=
  { f with obj := { f.obj with data := Dict.set f.obj.data s (Dict.set ((Dict.get? f.obj.data s).getD []) k v) } }

theorem topOp_loaded (h : f.cfg = some c) (op : EdOp) (hp : op.parses f.obj = none) :
    topOp n fs op f = ((op.exec (f.env baseClass c) n f.obj).1, { f with obj := (op.exec (f.env baseClass c) n f.obj).2 }) := by
  unfold topOp Full.runOp
  rw [h]
  dsimp only
  rw [missing_parses _ _ hp]

theorem topOp_access (h : Ready c s f) {op : EdOp} (ha : IsAccess s op) :
    topOp n fs op f = (storedAnswer (Dict.get? f.obj.data s) op, f) := by
  rw [topOp_loaded h.cfg op (access_parses h.checked op ha), access_checked h.checked op ha]

theorem checkSection_ready (h : Ready c s f) : checkSection n fs s f = (.ok (), f) := by
  obtain ⟨d, hd⟩ := h.has
  have : topOp n fs (.hasSection s) f = (.ok (.bool true), f) := by
    rw [topOp_access h (op := .hasSection s) rfl, hd]; rfl
  unfold checkSection
  rw [M.bind_def, this]
  rfl

theorem topValue_ready (h : Ready c s f) : topValue n fs s k f =
    (match stored f.obj s k with | some v => .ok v | none => .exc .keyError, f) := by
  obtain ⟨d, hd⟩ := h.has
  have : topOp n fs (.getItem s) f = (.ok (.opts d), f) := by
    rw [topOp_access h (op := .getItem s) rfl, hd]; rfl
  unfold topValue stored
  rw [M.bind_def, this, hd]
  dsimp only [Option.bind]
  cases Dict.get? d k <;> rfl

theorem topStore_ready (h : Ready c s f) (v : Str) : topStore n fs s k v f = (.ok (), storeIn f s k (some v)) := by
  obtain ⟨d, hd⟩ := h.has
  have : topOp n fs (.getItem s) f = (.ok (.opts d), f) := by
    rw [topOp_access h (op := .getItem s) rfl, hd]; rfl
  unfold topStore storeIn
  rw [M.bind_def, this, hd]
  rfl

theorem stored_storeIn (h : Ready c s f) (v : Option Str) (t k' : Str) :
    stored (storeIn f s k v).obj t k' = if t = s ∧ k' = k then some v else stored f.obj t k' := by
  unfold stored storeIn
  dsimp only
  by_cases ht : t = s
  · subst ht
    obtain ⟨d, hd⟩ := h.has
    rw [Dict.get?_set_self, hd]
    simp only [Option.bind, Option.getD, true_and]
    by_cases hk : k' = k
    · subst hk; rw [Dict.get?_set_self]; simp
    · rw [Dict.get?_set_ne _ _ hk]; simp [hk]
  · rw [Dict.get?_set_ne _ _ ht]; simp [ht]

theorem ready_storeIn {t : Str} (ht : Ready c t f) (v : Option Str) : Ready c t (storeIn f s k v) := by
  refine ⟨ht.cfg, ht.inFile, ht.checked, ?_⟩
  unfold storeIn
  dsimp only
  by_cases h : t = s
  · subst h; exact ⟨_, Dict.get?_set_self ..⟩
  · rw [Dict.get?_set_ne _ _ h]; exact ht.has

theorem storeIn_self (h : Ready c s f) {v : Option Str} (hv : stored f.obj s k = some v) (t k' : Str) :
    stored (storeIn f s k v).obj t k' = stored f.obj t k' := by
  rw [stored_storeIn h]
  split
  · rename_i h; rw [h.1, h.2, hv]
  · rfl

/-- One key, on loaded data. -/
theorem checkKey_ready (h : Ready c s f) (must : Bool) :
    (GoodPath fs ini must (stored f.obj s k) → ∃ v f', checkKey n fs ini must (s, k) f = (.ok (), f') ∧
      stored f.obj s k = some (some v) ∧ (∀ t, Ready c t f → Ready c t f') ∧ f'.level = f.level ∧
      ∀ t k', stored f'.obj t k' = if t = s ∧ k' = k then some (some (place ini v)) else stored f.obj t k') ∧
    (¬ GoodPath fs ini must (stored f.obj s k) → ∃ f', checkKey n fs ini must (s, k) f = (.exc .valueError, f') ∧
      (∀ t, Ready c t f → Ready c t f') ∧ f'.level = f.level ∧
      ∀ t k', stored f'.obj t k' = stored f.obj t k' ∨ (t = s ∧ k' = k ∧ ∃ v, v ≠ [] ∧ stored f.obj s k = some (some v) ∧
        stored f'.obj t k' = some (some (place ini v)))) := by
  rw [goodPath_iff]
  obtain ⟨d, hd⟩ := h.has
  have hst : stored f.obj s k = Dict.get? d k := by unfold stored; rw [hd]; rfl
  have h1 : topOp n fs (.hasOption s k) f = (.ok (.bool (Dict.mem d k)), f) := by
    rw [topOp_access h (op := .hasOption s k) rfl, hd, mem_eq_any]; rfl
  have step : checkKey n fs ini must (s, k) f = checkKey n fs ini must (s, k) f := rfl
  conv at step =>
    rhs
    unfold checkKey
    dsimp only
    rw [M.bind_def, h1]
    dsimp only
  cases hk : Dict.get? d k with
  | none =>
    rw [show Dict.mem d k = false from by unfold Dict.mem; rw [hk]; rfl, if_pos (by simp)] at step
    refine ⟨fun ⟨v, hv, _⟩ => (by rw [hst, hk] at hv; cases hv), fun _ => ⟨f, step, fun _ h => h, rfl, fun _ _ => .inl rfl⟩⟩
  | some x =>
    rw [show Dict.mem d k = true from by unfold Dict.mem; rw [hk]; rfl, if_neg (by simp), M.bind_def, topValue_ready h,
      hst, hk] at step
    dsimp only at step
    cases x with
    | none =>
      refine ⟨fun ⟨v, hv, _⟩ => (by rw [hst, hk] at hv; cases hv), fun _ => ⟨f, step, fun _ h => h, rfl, fun _ _ => .inl rfl⟩⟩
    | some v =>
      dsimp only at step
      by_cases hv : v = []
      · rw [if_pos hv] at step
        refine ⟨fun ⟨v', hv', hne, _⟩ => by rw [hst, hk] at hv'; cases hv'; exact absurd hv hne,
          fun _ => ⟨f, step, fun _ h => h, rfl, fun _ _ => .inl rfl⟩⟩
      · rw [if_neg hv] at step
        -- the state after the path has been put in place
        have hplace : ∃ f1, putInPlace n fs ini s k v f = (.ok (), f1) ∧
            (∀ t, Ready c t f → Ready c t f1) ∧ f1.level = f.level ∧
            ∀ t k', stored f1.obj t k' = if t = s ∧ k' = k then some (some (place ini v)) else stored f.obj t k' := by
          unfold putInPlace
          by_cases ha : (PPath.ofStr v).isAbsolute = true
          · refine ⟨f, by rw [if_pos ha]; rfl, fun _ h => h, rfl, fun t k' => ?_⟩
            split
            · rename_i hh; rw [hh.1, hh.2, hst, hk]; unfold place; rw [if_pos ha]
            · rfl
          · refine ⟨_, by rw [if_neg ha]; exact topStore_ready h _, fun _ ht => ready_storeIn ht _, rfl, fun t k' => ?_⟩
            rw [stored_storeIn h]
            unfold place
            rw [if_neg ha]
        obtain ⟨f1, hp1, hp2, hp3, hp4⟩ := hplace
        rw [M.bind_def, hp1] at step
        dsimp only at step
        unfold checkThere at step
        cases must with
        | false =>
          rw [if_neg (by simp)] at step
          exact ⟨fun _ => ⟨v, f1, step, by rw [hst, hk], hp2, hp3, hp4⟩,
            fun hn => absurd ⟨v, by rw [hst, hk], hv, by simp⟩ hn⟩
        | true =>
          rw [if_pos rfl, M.bind_def, topValue_ready (hp2 s h), hp4 s k, if_pos ⟨rfl, rfl⟩] at step
          dsimp only at step
          by_cases he : pathExists fs (place ini v) = true
          · rw [if_pos he] at step
            exact ⟨fun _ => ⟨v, f1, step, by rw [hst, hk], hp2, hp3, hp4⟩,
              fun hn => absurd ⟨v, by rw [hst, hk], hv, fun _ => he⟩ hn⟩
          · rw [if_neg he] at step
            refine ⟨fun ⟨v', hv', _, he'⟩ => ?_, fun _ => ⟨f1, step, hp2, hp3, fun t k' => ?_⟩⟩
            · rw [hst, hk] at hv'; cases hv'; exact absurd (he' rfl) he
            · by_cases hh : t = s ∧ k' = k
              · exact .inr ⟨hh.1, hh.2, v, hv, by rw [hst, hk], by rw [hp4, if_pos hh]⟩
              · exact .inl (by rw [hp4, if_neg hh])

/-- All the keys. -/
theorem checkKeys_ready (must : Bool) : ∀ (ks : List (Str × Str)) (f : Full Unit Unit), ks.Nodup →
    (∀ p ∈ ks, Ready c p.1 f) →
    ((∀ p ∈ ks, GoodPath fs ini must (stored f.obj p.1 p.2)) →
      ∃ f', M.forEach ks (checkKey n fs ini must) f = (.ok (), f') ∧ (∀ t, Ready c t f → Ready c t f') ∧ f'.level = f.level ∧
        ∀ t k, ((t, k) ∈ ks → ∃ v, stored f.obj t k = some (some v) ∧ stored f'.obj t k = some (some (place ini v))) ∧
          ((t, k) ∉ ks → stored f'.obj t k = stored f.obj t k)) ∧
    ((¬ ∀ p ∈ ks, GoodPath fs ini must (stored f.obj p.1 p.2)) →
      ∃ f', M.forEach ks (checkKey n fs ini must) f = (.exc .valueError, f') ∧ (∀ t, Ready c t f → Ready c t f') ∧
        f'.level = f.level ∧
        ∀ t k, stored f'.obj t k = stored f.obj t k ∨ ((t, k) ∈ ks ∧ ∃ v, v ≠ [] ∧ stored f.obj t k = some (some v) ∧
          stored f'.obj t k = some (some (place ini v))))
  | [], f, _, _ => by
    refine ⟨fun _ => ⟨f, rfl, fun _ h => h, rfl, fun t k => ⟨fun h => by simp at h, fun _ => rfl⟩⟩, fun h => absurd (by simp) h⟩
  | (s, k) :: ks, f, hnd, hr => by
    obtain ⟨hnk, hnd'⟩ := List.nodup_cons.1 hnd
    have hs : Ready c s f := hr (s, k) (by simp)
    obtain ⟨g1, g2⟩ := checkKey_ready (n := n) (fs := fs) (ini := ini) (k := k) hs must
    by_cases hg : GoodPath fs ini must (stored f.obj s k)
    · obtain ⟨v, f1, e1, hv, hr1, hl1, hs1⟩ := g1 hg
      have hsame : ∀ p ∈ ks, stored f1.obj p.1 p.2 = stored f.obj p.1 p.2 := by
        intro p hp
        rw [hs1, if_neg]
        rintro ⟨h1, h2⟩
        exact hnk (h1 ▸ h2 ▸ hp)
      obtain ⟨i1, i2⟩ := checkKeys_ready must ks f1 hnd' fun p hp => hr1 _ (hr p (by simp [hp]))
      have hall : (∀ p ∈ (s, k) :: ks, GoodPath fs ini must (stored f.obj p.1 p.2)) ↔
          ∀ p ∈ ks, GoodPath fs ini must (stored f1.obj p.1 p.2) := by
        constructor
        · intro h p hp; rw [hsame p hp]; exact h p (by simp [hp])
        · intro h p hp
          rcases List.mem_cons.1 hp with rfl | hp
          · exact hg
          · rw [← hsame p hp]; exact h p hp
      have hcons : M.forEach ((s, k) :: ks) (checkKey n fs ini must) f = M.forEach ks (checkKey n fs ini must) f1 := by
        show (checkKey n fs ini must (s, k) >>= fun _ => M.forEach ks (checkKey n fs ini must)) f = _
        rw [M.bind_def, e1]
      rw [hall, hcons]
      refine ⟨fun h => ?_, fun h => ?_⟩
      · obtain ⟨f', e, h1, h2, h3⟩ := i1 h
        refine ⟨f', e, fun t ht => h1 t (hr1 t ht), h2.trans hl1, fun t k' => ⟨fun hm => ?_, fun hm => ?_⟩⟩
        · by_cases hk : (t, k') ∈ ks
          · obtain ⟨v', a1, a2⟩ := (h3 t k').1 hk
            exact ⟨v', by rw [← hsame (t, k') hk]; exact a1, a2⟩
          · rcases List.mem_cons.1 hm with h | h
            · cases h
              exact ⟨v, hv, by rw [(h3 _ _).2 hk, hs1, if_pos ⟨rfl, rfl⟩]⟩
            · exact absurd h hk
        · simp only [List.mem_cons, not_or] at hm
          rw [(h3 t k').2 hm.2, hs1, if_neg]
          rintro ⟨rfl, rfl⟩
          exact hm.1 rfl
      · obtain ⟨f', e, h1, h2, h3⟩ := i2 h
        refine ⟨f', e, fun t ht => h1 t (hr1 t ht), h2.trans hl1, fun t k' => ?_⟩
        by_cases hk : (t, k') ∈ ks
        · rcases h3 t k' with a | ⟨_, v', a0, a1, a2⟩
          · exact .inl (by rw [a]; exact hsame _ hk)
          · exact .inr ⟨by simp [hk], v', a0, by rw [← a1]; exact (hsame _ hk).symm, a2⟩
        · rcases h3 t k' with a | ⟨a, _⟩
          · rw [a, hs1]
            split
            · rename_i hh
              obtain ⟨rfl, rfl⟩ := hh
              obtain ⟨v', q, hq, hne, _⟩ := hg
              rw [hv] at hq; cases hq
              exact .inr ⟨by simp, v, hne, hv, rfl⟩
            · exact .inl rfl
          · exact absurd a hk
    · obtain ⟨f1, e1, hr1, hl1, hs1⟩ := g2 hg
      refine ⟨fun h => absurd (h (s, k) (by simp)) hg, fun _ => ⟨f1, ?_, hr1, hl1, fun t k' => ?_⟩⟩
      · show (checkKey n fs ini must (s, k) >>= fun _ => M.forEach ks (checkKey n fs ini must)) f = _
        rw [M.bind_def, e1]
      · rcases hs1 t k' with a | ⟨rfl, rfl, a⟩
        · exact .inl a
        · exact .inr ⟨by simp, a⟩

/-! ### the sections -/

/-- The first access to a section, for an object of the class without handlers. -/
theorem parseOwner_base {o : Obj Unit Unit} {l : Nat} (hl : l ≤ 4) (hs : s ≠ []) (hu : Untouched s o)
    (hn : c.sectionNames.length + 3 ≤ n)
    (hd : c.hasSection py!"DEFAULT" = true → s = py!"DEFAULT" ∨ ¬ Reaches (baseEnv c 0) py!"DEFAULT" s) :
    (Sound (baseEnv c 0) s → ∃ d o', parseOwner (baseEnv c l) n s false o = (.ok (), o') ∧ Dict.get? o'.data s = some d ∧
      Resolved (baseEnv c 0) s d) ∧
    (∀ e, Faults (baseEnv c 0) s e → ∃ o', parseOwner (baseEnv c l) n s false o = (.exc e, o')) := by
  have hd' : true = true → (baseEnv c l).cfg.hasSection (baseEnv c l).defaultName = true →
      s = (baseEnv c l).defaultName ∨ ¬ Reaches (baseEnv c l) (baseEnv c l).defaultName s := by
    intro _ h
    rcases hd h with h | h
    · exact .inl h
    · exact .inr fun hr => h (reaches_level (E := baseEnv c 0) (l := l) hr)
  constructor
  · rintro ⟨evs, ht, hno⟩
    have ht' : ParseTrace (baseEnv c l) s true true evs := parseTrace_level (E := baseEnv c l) (l := 0) ht
    have h := (parseSection_replay (o := o) hs ht' hn hd').1
    rw [replay_mild hl (mild_trace ht') _ hno] at h
    have hp := parseOwner_first (E := baseEnv c l) (n := n) hs false (.inl hu.1)
    cases hx : parseSection (baseEnv c l) n s true true o with
    | mk r o' =>
      rw [hx] at h hp
      dsimp only at h
      subst h
      have hp : parseOwner (baseEnv c l) n s false o = (.ok (), o') := hp
      have hset : Settled (baseEnv c l) s o := ⟨fun hc => absurd hc hu.1, fun _ => hu.2⟩
      obtain ⟨d, h1, evs', h2, h3⟩ := parseOwner_settled hset hp
      exact ⟨d, o', hp, h1, evs', parseTrace_level (E := baseEnv c 0) (l := l) h2, h3⟩
  · rintro e ⟨a, ev, b, ht, hev, hno⟩
    have ht' : ParseTrace (baseEnv c l) s true true (a ++ ev :: b) := parseTrace_level (E := baseEnv c l) (l := 0) ht
    have h := (parseSection_replay (o := o) hs ht' hn hd').1
    rw [replay_fault hl hev (mild_trace ht') hno] at h
    have hp := parseOwner_first (E := baseEnv c l) (n := n) hs false (.inl hu.1)
    cases hx : parseSection (baseEnv c l) n s true true o with
    | mk r o' =>
      rw [hx] at h hp
      dsimp only at h
      subst h
      exact ⟨o', hp⟩

/-- Parsing one section leaves the data of the others. -/
theorem parseOwner_others {E : Env Unit Unit} {o : Obj Unit Unit} {t : Str} (hs : s ≠ []) (ht : t ≠ s) :
    (∀ d, Dict.get? o.data t = some d → Dict.get? (parseOwner E n s false o).2.data t = some d) ∧
    ((E.cfg.optionNames t).isSome = false → Dict.get? o.data t = none →
      Dict.get? (parseOwner E n s false o).2.data t = none) ∧
    (t ∈ o.checked ↔ t ∈ (parseOwner E n s false o).2.checked) ∧
    (Untouched t o → Untouched t (parseOwner E n s false o).2) := by
  by_cases hc : s ∈ o.checked
  · rw [parseOwner_checked hc]
    exact ⟨fun _ h => h, fun _ h => h, Iff.rfl, id⟩
  · have hp := parseOwner_first (E := E) (n := n) hs false (.inl hc)
    have e : (parseOwner E n s false o).2 = (parseSection E n s true true o).2 := by
      rw [hp]
      cases parseSection E n s true true o with
      | mk r o' => cases r <;> rfl
    rw [e]
    have hf := parseSection_frame E n s true true o t ht
    have hk := parseSection_checked E n hs true true o
    have hck : t ∈ o.checked ↔ t ∈ (parseSection E n s true true o).2.checked := by
      rw [hk]
      unfold setAdd
      split
      · exact Iff.rfl
      · simp [ht]
    refine ⟨fun d hd => ?_, fun h1 h2 => ?_, hck, fun hu => ⟨fun h => hu.1 (hck.2 h), ?_⟩⟩
    · rcases hf with h | ⟨h, _⟩
      · rw [h, hd]
      · rw [hd] at h; cases h
    · rcases hf with h | ⟨_, _, h⟩
      · rw [h, h2]
      · rw [h1] at h; cases h
    · rcases hf with h | ⟨_, h, _⟩
      · rw [h]; exact hu.2
      · exact .inr h

/-- Section `s` of `c` is there and unrolls without a fault. -/
def SectionOk (c : Cfg) (s : Str) : Prop := s ∈ c.sectionNames ∧ Sound (baseEnv c 0) s

/-- A section not looked at yet. -/
structure Fresh (c : Cfg) (s : Str) (f : Full Unit Unit) : Prop where
  untouched : Untouched s f.obj
  missing : (c.optionNames s).isSome = false → Dict.get? f.obj.data s = none

/-- A section that has been read and not been edited. -/
structure ReadIn (c : Cfg) (s : Str) (f : Full Unit Unit) : Prop where
  ready : Ready c s f
  resolved : ∃ d, Dict.get? f.obj.data s = some d ∧ Resolved (baseEnv c 0) s d

theorem checkSection_fresh (hc : f.cfg = some c) (hl : f.level ≤ 4) (hs : s ≠ []) (hcm : s ≠ c.commonName)
    (hu : Fresh c s f) (hn : c.sectionNames.length + 3 ≤ n) (hd : DefaultApart c) :
    (SectionOk c s → ∃ f', checkSection n fs s f = (.ok (), f') ∧ ReadIn c s f' ∧ f'.level = f.level ∧ f'.cfg = some c ∧
      ∀ t, t ≠ s → (ReadIn c t f → ReadIn c t f') ∧ (Fresh c t f → Fresh c t f')) ∧
    (s ∉ c.sectionNames → ∃ f', checkSection n fs s f = (.exc .valueError, f')) ∧
    (∀ e, s ∈ c.sectionNames → Faults (baseEnv c 0) s e → ∃ f', checkSection n fs s f = (.exc e, f')) := by
  have hop : ∀ x, checkSection n fs s f = x ↔ (match edHasSection (baseEnv c f.level) n s f.obj with
      | (.ok b, o) => (if b = true then .ok () else .exc .valueError, { f with obj := o })
      | (.exc e, o) => (.exc e, { f with obj := o })
      | (.diverge, o) => (.diverge, { f with obj := o })) = x := by
    intro x
    unfold checkSection
    rw [M.bind_def, topOp_loaded hc _ rfl]
    unfold EdOp.exec
    dsimp only
    rw [M.bind_def]
    have : f.env baseClass c = baseEnv c f.level := rfl
    rw [this]
    cases edHasSection (baseEnv c f.level) n s f.obj with
    | mk r o =>
      cases r with
      | ok b => cases b <;> exact Iff.rfl
      | exc e => exact Iff.rfl
      | diverge => exact Iff.rfl
  refine ⟨fun ⟨hm, hsd⟩ => ?_, fun hm => ?_, fun e hm hf => ?_⟩
  · have hsec := hasSection_of_mem hm
    obtain ⟨d, o', e, hd1, hd2⟩ := (parseOwner_base hl hs hu.untouched hn fun hx => hd hx s hm).1 hsd
    refine ⟨{ f with obj := o' }, ?_, ?_, rfl, hc, ?_⟩
    · rw [hop, edHasSection_apply (E := baseEnv c f.level) hsec, e]
      dsimp only
      rw [show Dict.mem o'.data s = true from by unfold Dict.mem; rw [hd1]; rfl, if_pos rfl]
    · have := parseOwner_marks (baseEnv c f.level) n s false f.obj
      rw [e] at this
      exact ⟨⟨hc, hsec, this, d, hd1⟩, d, hd1, hd2⟩
    · intro t ht
      have ho := parseOwner_others (E := baseEnv c f.level) (n := n) (o := f.obj) hs ht
      rw [e] at ho
      obtain ⟨o1, o2, o3, o4⟩ := ho
      refine ⟨fun hr => ?_, fun hr => ⟨o4 hr.untouched, fun h => o2 h (hr.missing h)⟩⟩
      obtain ⟨⟨_, h2, h3, _⟩, d', h4, h5⟩ := hr
      exact ⟨⟨hc, h2, o3.1 h3, d', o1 _ h4⟩, d', o1 _ h4, h5⟩
  · have hx : c.hasSection s = false := by
      cases hx : c.hasSection s with
      | false => rfl
      | true => exact absurd ((Dict.mem_iff _ _).1 hx) hm
    have hno : (c.optionNames s).isSome = false := by
      unfold Cfg.optionNames
      rw [if_neg hcm]
      unfold Cfg.hasSection Dict.mem at hx
      cases hg : Dict.get? c.sections s with
      | none => rfl
      | some v => rw [hg] at hx; cases hx
    refine ⟨f, ?_⟩
    rw [hop, edHasSection_missing (E := baseEnv c f.level) hx]
    dsimp only
    rw [show Dict.mem f.obj.data s = false from by unfold Dict.mem; rw [hu.missing hno]; rfl]
    rfl
  · have hsec := hasSection_of_mem hm
    obtain ⟨o', h⟩ := (parseOwner_base hl hs hu.untouched hn fun hx => hd hx s hm).2 e hf
    refine ⟨{ f with obj := o' }, ?_⟩
    rw [hop, edHasSection_apply (E := baseEnv c f.level) hsec, h]

theorem forEach_cons {ι : Type} (x : ι) (xs : List ι) (g : ι → M (Full Unit Unit) Unit) (f : Full Unit Unit) :
    M.forEach (x :: xs) g f = match g x f with
      | (.ok _, f') => M.forEach xs g f'
      | (.exc e, f') => (.exc e, f')
      | (.diverge, f') => (.diverge, f') := by
  show (g x >>= fun _ => M.forEach xs g) f = _
  rw [M.bind_def]
  cases g x f with
  | mk r f' => cases r <;> rfl

theorem forEach_append {ι : Type} (ys : List ι) (g : ι → M (Full Unit Unit) Unit) {f1 : Full Unit Unit} :
    ∀ (xs : List ι) (f : Full Unit Unit), M.forEach xs g f = (.ok (), f1) → M.forEach (xs ++ ys) g f = M.forEach ys g f1
  | [], f, h => by cases h; rfl
  | x :: xs, f, h => by
    rw [forEach_cons] at h
    rw [List.cons_append, forEach_cons]
    cases hx : g x f with
    | mk r f2 =>
      rw [hx] at h
      cases r with
      | ok _ => exact forEach_append ys g xs f2 h
      | exc e => cases h
      | diverge => cases h

/-- All the sections, when they are fine. -/
theorem checkSections_ok (hn : c.sectionNames.length + 3 ≤ n) (hd : DefaultApart c) : ∀ (L : List Str) (f : Full Unit Unit),
    L.Nodup → f.cfg = some c → f.level ≤ 4 → (∀ s ∈ L, s ≠ [] ∧ s ≠ c.commonName ∧ Fresh c s f ∧ SectionOk c s) →
    ∃ f', M.forEach L (checkSection n fs) f = (.ok (), f') ∧ (∀ s ∈ L, ReadIn c s f') ∧ f'.level = f.level ∧
      f'.cfg = some c ∧ ∀ t, t ∉ L → (ReadIn c t f → ReadIn c t f') ∧ (Fresh c t f → Fresh c t f')
  | [], f, _, hc, _, _ => ⟨f, rfl, by simp, rfl, hc, fun _ _ => ⟨id, id⟩⟩
  | s :: L, f, hnd, hc, hl, h => by
    obtain ⟨hns, hnd'⟩ := List.nodup_cons.1 hnd
    obtain ⟨h1, h2, h3, h4⟩ := h s (by simp)
    obtain ⟨f1, e1, r1, l1, c1, o1⟩ := (checkSection_fresh (fs := fs) hc hl h1 h2 h3 hn hd).1 h4
    obtain ⟨f2, e2, r2, l2, c2, o2⟩ := checkSections_ok hn hd L f1 hnd' c1 (by omega) (by
      intro t ht
      obtain ⟨g1, g2, g3, g4⟩ := h t (by simp [ht])
      exact ⟨g1, g2, (o1 t fun e => hns (e ▸ ht)).2 g3, g4⟩)
    refine ⟨f2, by rw [forEach_cons, e1]; exact e2, fun t ht => ?_, l2.trans l1, c2, fun t ht => ?_⟩
    · rcases List.mem_cons.1 ht with rfl | ht
      · exact (o2 _ hns).1 r1
      · exact r2 t ht
    · simp only [List.mem_cons, not_or] at ht
      exact ⟨fun x => (o2 t ht.2).1 ((o1 t ht.1).1 x), fun x => (o2 t ht.2).2 ((o1 t ht.1).2 x)⟩

/-- The first section that is not fine decides. -/
theorem checkSections_bad (hn : c.sectionNames.length + 3 ≤ n) (hd : DefaultApart c) {post : List Str} :
    ∀ (L : List Str) (f : Full Unit Unit), (L ++ s :: post).Nodup → f.cfg = some c → f.level ≤ 4 →
    (∀ s ∈ L, s ≠ [] ∧ s ≠ c.commonName ∧ Fresh c s f ∧ SectionOk c s) → s ≠ [] → s ≠ c.commonName → Fresh c s f →
    (s ∉ c.sectionNames → (M.forEach (L ++ s :: post) (checkSection n fs) f).1 = .exc .valueError) ∧
    (∀ e, s ∈ c.sectionNames → Faults (baseEnv c 0) s e →
      (M.forEach (L ++ s :: post) (checkSection n fs) f).1 = .exc e) := by
  intro L f hnd hc hl h h1 h2 h3
  have hnd1 := (List.nodup_append.1 hnd).1
  have hsL : s ∉ L := fun hs => (List.nodup_append.1 hnd).2.2 s hs s (by simp) rfl
  obtain ⟨f1, e1, r1, l1, c1, o1⟩ := checkSections_ok (fs := fs) hn hd L f hnd1 hc hl h
  have happ := forEach_append (s :: post) (checkSection n fs) L f e1
  rw [happ, forEach_cons]
  obtain ⟨_, g2, g3⟩ := checkSection_fresh (fs := fs) c1 (by omega) h1 h2 ((o1 s hsL).2 h3) hn hd
  constructor
  · intro hm
    obtain ⟨f2, e2⟩ := g2 hm
    rw [e2]
  · intro e hm hf
    obtain ⟨f2, e2⟩ := g3 e hm hf
    rw [e2]

/-! ### the first check of a new object -/

theorem topNew_eq (ini : Str) : topNew ini = newOn [ini] := rfl

/-- The object once the file is loaded. -/
def topLoaded (ini : Str) (c : Cfg) : Full Unit Unit := { newOn [ini] with cfg := some c }

theorem loadFiles_stores {fl : Option (List Str)} {ds : List Str} (h : (loadFiles fs fl ds).1 = .ok c) :
    (loadFiles fs fl ds).2 = some c := by
  unfold loadFiles at h ⊢
  split at h
  · cases h
  · cases h
  · split at h
    · cases h
    · rename_i hx
      rw [if_neg hx]
      split at h
      · cases h; rfl
      · split at h <;> cases h

theorem topLoaded_load (hc : ((newOn [ini]).configdata fs).1 = .ok c) :
    (newOn [ini]).configdata fs = (.ok c, topLoaded ini c) := by
  have h := newOn_load [ini] fs
  rw [hc] at h
  cases hl : (loadFiles fs (some [ini]) [['='], [':']]).1 with
  | error e => rw [hl] at h; cases h
  | ok c' =>
    rw [hl] at h
    cases h
    have h2 := loadFiles_stores hl
    refine Prod.ext hc ?_
    show ({ newOn [ini] with cfg := (loadFiles fs (some [ini]) [['='], [':']]).2 } : Full Unit Unit) = _
    rw [h2]
    rfl

theorem topLoaded_op (hc : ((newOn [ini]).configdata fs).1 = .ok c) (s : Str) :
    topOp n fs (.hasSection s) (topNew ini) = topOp n fs (.hasSection s) (topLoaded ini c) := by
  rw [topOp_loaded (f := topLoaded ini c) (c := c) rfl _ rfl]
  unfold topOp Full.runOp
  rw [topNew_eq]
  have hnone : (newOn [ini]).cfg = none := by rw [newOn_eq]
  rw [hnone]
  dsimp only
  have ht : EdOp.touch ((newOn [ini]).env baseClass emptyCfg) (.hasSection s) (newOn [ini]).obj = (.ok true, (newOn [ini]).obj) := rfl
  rw [ht]
  dsimp only
  rw [topLoaded_load hc]
  rfl

theorem topLoaded_sections (hc : ((newOn [ini]).configdata fs).1 = .ok c) {L : List Str} (hL : L ≠ []) :
    M.forEach L (checkSection n fs) (topNew ini) = M.forEach L (checkSection n fs) (topLoaded ini c) := by
  cases L with
  | nil => exact absurd rfl hL
  | cons s L =>
    rw [forEach_cons, forEach_cons]
    have : checkSection n fs s (topNew ini) = checkSection n fs s (topLoaded ini c) := by
      unfold checkSection
      rw [M.bind_def, M.bind_def, topLoaded_op hc]
    rw [this]

theorem topLoaded_fresh (ini : Str) (c : Cfg) (s : Str) : Fresh c s (topLoaded ini c) := by
  have : (topLoaded ini c).obj = Obj.fresh baseClass () := by unfold topLoaded; rw [newOn_eq]
  refine ⟨?_, ?_⟩
  · rw [this]; exact ⟨by simp [Obj.fresh], .inl rfl⟩
  · rw [this]; exact fun _ => rfl

/-- A description of a top level file that makes sense. -/
structure TopFile.Proper (t : TopFile) : Prop where
  some : t.sections ≠ []
  names : ∀ s ∈ t.sections, s ≠ [] ∧ s ≠ commonSectionName
  sections : t.sections.Nodup
  keys : t.keys.Nodup
  inSections : ∀ p ∈ t.keys, p.1 ∈ t.sections

/-- The first check, when the sections are fine. -/
theorem checkTop_first {t : TopFile} (hp : t.Proper) (hc : ((newOn [ini]).configdata fs).1 = .ok c)
    (hn : c.sectionNames.length + 3 ≤ n) (hd : DefaultApart c) (hs : ∀ s ∈ t.sections, SectionOk c s) :
    ∃ f, M.forEach t.sections (checkSection n fs) (topNew ini) = (.ok (), f) ∧ (∀ s ∈ t.sections, ReadIn c s f) ∧
      ∀ s, s ∉ t.sections → Fresh c s f := by
  have hcm : c.commonName = commonSectionName := (newOn_names hc).2.1
  obtain ⟨f, e, r, _, _, o⟩ := checkSections_ok (fs := fs) hn hd t.sections (topLoaded ini c) hp.sections rfl
    (by unfold topLoaded; rw [newOn_eq]; exact Nat.le_refl 4) fun s hs' => ⟨(hp.names s hs').1, hcm ▸ (hp.names s hs').2, topLoaded_fresh ini c s, hs s hs'⟩
  exact ⟨f, by rw [topLoaded_sections hc hp.some]; exact e, r, fun s hs => (o s hs).2 (topLoaded_fresh ini c s)⟩

theorem checkTop_apply (t : TopFile) (f : Full Unit Unit) : checkTop n fs ini t f =
    match M.forEach t.sections (checkSection n fs) f with
    | (.ok _, f') => M.forEach t.keys (checkKey n fs ini t.mustExist) f'
    | (.exc e, f') => (.exc e, f')
    | (.diverge, f') => (.diverge, f') := by
  unfold checkTop
  rw [M.bind_def]
  cases M.forEach t.sections (checkSection n fs) f with
  | mk r f' => cases r <;> rfl

theorem checkTop_ready {t : TopFile} (h : ∀ s ∈ t.sections, Ready c s f) :
    checkTop n fs ini t f = M.forEach t.keys (checkKey n fs ini t.mustExist) f := by
  have : ∀ (L : List Str), (∀ s ∈ L, Ready c s f) → M.forEach L (checkSection n fs) f = (.ok (), f) := by
    intro L
    induction L with
    | nil => intro _; rfl
    | cons s L ih =>
      intro h
      rw [forEach_cons, checkSection_ready (h s (by simp))]
      exact ih fun t ht => h t (by simp [ht])
  rw [checkTop_apply, this _ h]

end CPE.KW
