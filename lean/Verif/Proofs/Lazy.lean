import Verif.Proofs.Access
import Verif.Model.Object
/-
Loading the file at the first access is the same as having loaded it before, as long as it loads.
-/
namespace CPE
open Spec
variable {δ ω : Type}

theorem touchParse_nil (E : Env δ ω) (i : Bool) (o : Obj δ ω) :
    touchParse E [] i o = (.exc .valueError, { o with log := [] }) := rfl

theorem touchParse_init (E : Env δ ω) {s : Str} (hs : s ≠ []) (o : Obj δ ω) :
    touchParse E s true o =
      match callHandler E E.hookInit { sectionName := s, sectionRoot := s, handlerName := py!"handler_initialize" }
          { toCore := startCore E s o.toCore, processed := [], log := [] } with
      | (.ok _, w) => (.ok true, { toWorld := w, lastResult := o.lastResult })
      | (.exc e, w) => (.exc e, { toWorld := w, lastResult := o.lastResult })
      | (.diverge, w) => (.diverge, { toWorld := w, lastResult := o.lastResult }) := by
  unfold touchParse
  simp only [M.modify_bind, if_neg hs, if_true]
  rw [M.bind_def, liftW_apply]
  simp only [startCore]
  generalize callHandler E E.hookInit _ _ = x
  obtain ⟨r, w⟩ := x
  cases r <;> rfl

theorem touchParse_noInit (E : Env δ ω) {s : Str} (hs : s ≠ []) (o : Obj δ ω) :
    ∃ o', touchParse E s false o = (.ok true, o') := by
  unfold touchParse
  simp only [M.modify_bind, if_neg hs, Bool.false_eq_true, if_false]
  exact ⟨_, rfl⟩

/-- A parse that stops before its first access to the file stops in the same way whatever the file is. -/
theorem touchParse_stop (E : Env δ ω) (c : Cfg) (n : Nat) (s : Str) (i f : Bool) {o o' : Obj δ ω} {x : Out Bool}
    (h : touchParse E s i o = (x, o')) (hx : ∀ b, x ≠ .ok b) (g : Bool → δ) :
    parseSection { E with cfg := c } (n + 1) s i f o = (Out.map' g x, o') := by
  by_cases hs : s = []
  · subst hs
    rw [touchParse_nil] at h
    cases h
    rw [parseSection_nil]; rfl
  · cases i with
    | false =>
      obtain ⟨o1, h1⟩ := touchParse_noInit E hs o
      rw [h1] at h
      cases h
      exact absurd rfl (hx true)
    | true =>
      rw [touchParse_init E hs] at h
      rw [parseSection_apply _ _ hs]
      unfold parseR
      simp only [decide_true, Bool.and_true, if_true]
      rw [M.bind_def]
      have hc : callHandler { E with cfg := c } ({ E with cfg := c } : Env δ ω).hookInit
          { sectionName := s, sectionRoot := s, handlerName := py!"handler_initialize" }
          { toCore := startCore { E with cfg := c } s o.toCore, processed := [], log := [] } =
          callHandler E E.hookInit { sectionName := s, sectionRoot := s, handlerName := py!"handler_initialize" }
          { toCore := startCore E s o.toCore, processed := [], log := [] } := rfl
      dsimp only at hc ⊢
      rw [hc]
      generalize callHandler E E.hookInit _ _ = y at h
      obtain ⟨r, w⟩ := y
      cases r with
      | ok u => cases h; exact absurd rfl (hx true)
      | exc e => cases h; rfl
      | diverge => cases h; rfl

theorem touchParse_ok (E : Env δ ω) (s : Str) (i : Bool) {o o' : Obj δ ω} {b : Bool}
    (h : touchParse E s i o = (.ok b, o')) : b = true := by
  by_cases hs : s = []
  · subst hs; rw [touchParse_nil] at h; cases h
  · cases i with
    | false =>
      obtain ⟨o1, h1⟩ := touchParse_noInit E hs o
      rw [h1] at h; cases h; rfl
    | true =>
      rw [touchParse_init E hs] at h
      generalize callHandler E E.hookInit _ _ = y at h
      obtain ⟨r, w⟩ := y
      cases r <;> cases h
      rfl

theorem touchOwner_apply (E : Env δ ω) (s : Str) (o : Obj δ ω) :
    touchOwner E s o = if s ∈ o.checked then (.ok false, o)
      else touchParse E s true { o with checked := setAdd o.checked s } := by
  unfold touchOwner
  rw [M.read_bind]
  by_cases h : s ∈ o.checked
  · simp [h]; rfl
  · simp only [h, not_false_eq_true, if_true, if_false]
    rw [M.modify_bind]

theorem touchOwner_stop (E : Env δ ω) (c : Cfg) (n : Nat) (s : Str) {o o' : Obj δ ω} {x : Out Bool}
    (h : touchOwner E s o = (x, o')) (hx : ∀ b, x ≠ .ok b) (g : Bool → Unit) :
    parseOwner { E with cfg := c } (n + 1) s false o = (Out.map' g x, o') := by
  rw [touchOwner_apply] at h
  split at h
  · cases h; exact absurd rfl (hx false)
  · rename_i hc
    rw [parseOwner_apply, if_pos (.inl hc), touchParse_stop E c n s true true h hx (fun _ => E.emptyShared)]
    cases x with
    | ok b => exact absurd rfl (hx b)
    | exc e => rfl
    | diverge => rfl

theorem touchOwner_false (E : Env δ ω) (s : Str) {o o' : Obj δ ω}
    (h : touchOwner E s o = (.ok false, o')) : s ∈ o.checked := by
  rw [touchOwner_apply] at h
  split at h
  · assumption
  · exact absurd (touchParse_ok E s true h) (by simp)

/-- An operation that stops before its first access to the file stops in the same way whatever the file is. -/
theorem touch_stop (E : Env δ ω) (c : Cfg) (n : Nat) (op : EdOp) {o o' : Obj δ ω} {x : Out Bool}
    (h : op.touch E o = (x, o')) (hx : ∀ b, x ≠ .ok b) (g : Bool → EdVal δ) :
    op.exec { E with cfg := c } (n + 1) o = (Out.map' g x, o') := by
  have bind : ∀ {α : Type} {m : M (Obj δ ω) α} {k : α → M (Obj δ ω) (EdVal δ)} {y : Out α},
      m o = (y, o') → (∀ b, y ≠ .ok b) → (∀ e, y = .exc e ↔ x = .exc e) → (m >>= k) o = (Out.map' g x, o') := by
    intro α m k y hm hy he
    rw [M.bind_def, hm]
    cases y with
    | ok b => exact absurd rfl (hy b)
    | exc e => rw [(he e).1 rfl]; rfl
    | diverge =>
      cases x with
      | ok b => exact absurd rfl (hx b)
      | exc e => exact absurd ((he e).2 rfl) (by simp)
      | diverge => rfl
  have same : ∀ {α : Type} (g : Bool → α), (∀ b, Out.map' g x ≠ .ok b) ∧ ∀ e, Out.map' g x = .exc e ↔ x = .exc e := by
    intro α g
    cases x with
    | ok b => exact absurd rfl (hx b)
    | exc e => simp [Out.map']
    | diverge => simp [Out.map']
  have owner : ∀ {s : Str}, (do let _ ← touchOwner E s; pure true : M (Obj δ ω) Bool) o = (x, o') →
      touchOwner E s o = (x, o') := by
    intro s hs
    rw [M.bind_def] at hs
    cases ht : touchOwner E s o with
    | mk y o1 =>
      rw [ht] at hs
      cases y with
      | ok b => cases hs; exact absurd rfl (hx true)
      | exc e => exact hs
      | diverge => exact hs
  cases op with
  | parseSection s i f =>
    exact bind (touchParse_stop E c n s i f h hx (fun _ => E.emptyShared)) (same _).1 (same _).2
  | hasOption s k =>
    refine bind (y := Out.map' (fun _ => true) x) ?_ (same _).1 (same _).2
    rw [edHasOption_apply, touchOwner_stop E c n s h hx (fun _ => ())]
    cases x with
    | ok b => exact absurd rfl (hx b)
    | exc e => rfl
    | diverge => rfl
  | get s =>
    refine bind (y := Out.map' (fun _ => []) x) ?_ (same _).1 (same _).2
    rw [edGet_apply, touchOwner_stop E c n s (owner h) hx (fun _ => ())]
    cases x with
    | ok b => exact absurd rfl (hx b)
    | exc e => rfl
    | diverge => rfl
  | getOption s k =>
    refine bind (y := Out.map' (fun _ => none) x) ?_ (same _).1 (same _).2
    rw [edGetOption_apply, touchOwner_stop E c n s (owner h) hx (fun _ => ())]
    cases x with
    | ok b => exact absurd rfl (hx b)
    | exc e => rfl
    | diverge => rfl
  | assertSection s b =>
    refine bind (y := Out.map' (fun _ => none) x) ?_ (same _).1 (same _).2
    unfold CPE.assertSection
    rw [M.bind_def, edGet_apply, touchOwner_stop E c n s (owner h) hx (fun _ => ())]
    cases x with
    | ok b => exact absurd rfl (hx b)
    | exc e => rfl
    | diverge => rfl
  | sections a => cases a <;> cases h <;> exact absurd rfl (hx _)
  | parseAll | keys | len | hasSection | hasSectionNoParse | options | getItem | itemsAll | items | assertFile | addSection
  | set => cases h; exact absurd rfl (hx _)

/-- An operation that makes no access to the file does the same whatever the file is. -/
theorem touch_none (E : Env δ ω) (c c' : Cfg) (n : Nat) (op : EdOp) {o o' : Obj δ ω}
    (h : op.touch E o = (.ok false, o')) :
    op.exec { E with cfg := c } n o = op.exec { E with cfg := c' } n o := by
  have owner : ∀ {s : Str}, (do let _ ← touchOwner E s; pure true : M (Obj δ ω) Bool) o ≠ (.ok false, o') := by
    intro s hs
    rw [M.bind_def] at hs
    cases ht : touchOwner E s o with
    | mk y o1 =>
      rw [ht] at hs
      cases y <;> cases hs
  cases op with
  | parseSection s i f => exact absurd (touchParse_ok E s i h) (by simp)
  | hasOption s k =>
    have hc := touchOwner_false E s h
    change (edHasOption _ n s k >>= _) o = (edHasOption _ n s k >>= _) o
    rw [M.bind_ok (edHasOption_checked hc k), M.bind_ok (edHasOption_checked hc k)]
  | get s => exact absurd h owner
  | getOption s k => exact absurd h owner
  | assertSection s b => exact absurd h owner
  | sections a => cases a <;> first | rfl | cases h
  | hasSectionNoParse s => rfl
  | addSection s f => rfl
  | parseAll | keys | len | hasSection | options | getItem | itemsAll | items | assertFile | set => cases h

theorem missing_files (K : Env δ ω) (op : EdOp) (c : Cfg) {f : Full δ ω} (hf : f.files ≠ none) (r : Out (EdVal δ)) :
    f.missing K op c r = r := by
  unfold Full.missing
  cases h : f.files with
  | none => exact absurd h hf
  | some ps => rfl

theorem missing_ok {K : Env δ ω} {op : EdOp} {c : Cfg} {f : Full δ ω} {r : Out (EdVal δ)} {v : EdVal δ}
    (h : f.missing K op c r = .ok v) : r = .ok v := by
  unfold Full.missing at h
  split at h
  · split at h <;> cases h
  · exact h

theorem missing_parses (K : Env δ ω) {op : EdOp} (c : Cfg) {f : Full δ ω} (hp : op.parses f.obj = none)
    (r : Out (EdVal δ)) : f.missing K op c r = r := by
  unfold Full.missing
  rw [hp]
  cases f.files <;> rfl

theorem loads_files {fs : FS} {f : Full δ ω} {c : Cfg} (hf : f.cfg = none) (hc : (f.configdata fs).1 = .ok c) :
    f.files ≠ none := by
  intro h
  unfold Full.configdata at hc
  rw [hf, h] at hc
  cases hc

/-- Lazy loading: if the file loads, an operation does what it would do with the file loaded before. -/
theorem runOp_loaded' (K : Env δ ω) (n : Nat) (fs : FS) (op : EdOp) (f : Full δ ω) {c : Cfg}
    (hc : (f.configdata fs).1 = .ok c) :
    (f.runOp K (n + 1) fs op).1 = f.missing K op c (op.exec (f.env K c) (n + 1) f.obj).1 ∧
    (f.runOp K (n + 1) fs op).2.obj = (op.exec (f.env K c) (n + 1) f.obj).2 := by
  unfold Full.runOp
  cases hf : f.cfg with
  | some c' =>
    have : c' = c := by
      unfold Full.configdata at hc
      rw [hf] at hc
      cases hc; rfl
    subst this
    exact ⟨rfl, rfl⟩
  | none =>
    rw [missing_files K op c (loads_files hf hc)]
    dsimp only
    cases ht : op.touch (f.env K emptyCfg) f.obj with
    | mk x o' =>
      cases x with
      | ok b =>
        cases b with
        | false =>
          have := touch_none (f.env K emptyCfg) emptyCfg c (n + 1) op ht
          have e : op.exec (f.env K emptyCfg) (n + 1) f.obj = op.exec (f.env K c) (n + 1) f.obj := this
          dsimp only
          rw [e]
          exact ⟨rfl, rfl⟩
        | true =>
          dsimp only
          cases hd : f.configdata fs with
          | mk r f' =>
            rw [hd] at hc
            cases hc
            exact ⟨rfl, rfl⟩
      | exc e =>
        have := touch_stop (f.env K emptyCfg) c n op ht (by simp) (fun _ => .unit)
        have e' : op.exec (f.env K c) (n + 1) f.obj = _ := this
        rw [e']
        exact ⟨rfl, rfl⟩
      | diverge =>
        have := touch_stop (f.env K emptyCfg) c n op ht (by simp) (fun _ => .unit)
        have e' : op.exec (f.env K c) (n + 1) f.obj = _ := this
        rw [e']
        exact ⟨rfl, rfl⟩

/-- Lazy loading, with some list of files assigned. -/
theorem runOp_loaded (K : Env δ ω) (n : Nat) (fs : FS) (op : EdOp) (f : Full δ ω) {c : Cfg}
    (hc : (f.configdata fs).1 = .ok c) (hf : f.files ≠ none) :
    (f.runOp K (n + 1) fs op).1 = (op.exec (f.env K c) (n + 1) f.obj).1 ∧
    (f.runOp K (n + 1) fs op).2.obj = (op.exec (f.env K c) (n + 1) f.obj).2 := by
  obtain ⟨h1, h2⟩ := runOp_loaded' K n fs op f hc
  rw [missing_files K op c hf] at h1
  exact ⟨h1, h2⟩

end CPE
