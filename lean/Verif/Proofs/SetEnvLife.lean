import Verif.Spec.SetEnvLife
import Verif.Proofs.Lazy
import Verif.Proofs.SetEnvPrint
import Verif.Props.Apply
/-
The lists of actions in the life of an object.
-/
namespace CPE.SetEnv
open CPE.Spec CPE.SetEnv.Spec CPE.Props

variable {st : Settings} {n : Nat} {fs : FS} {c : Cfg}

theorem full_env (st : Settings) (f : Full Shared Actions) (c : Cfg) :
    f.env (cls st) c = env c { st with level := f.level } := rfl

/-! ### the exception level plays no part -/

theorem unrolls_level {lv lv' : Nat} {root : Str} {task : Task} {evs : List (Ev Shared Actions)}
    (h : Unrolls (env c { st with level := lv }) root task evs) :
    Unrolls (env c { st with level := lv' }) root task evs := by
  induction h with
  | missing h => exact .missing h
  | sec h _ ih => exact .sec h ih
  | nil => exact .nil
  | plain h _ ih => exact .plain h ih
  | cyclic h h' _ ih => exact .cyclic h h' ih
  | link h h' _ _ ih ih' => exact .link h h' ih ih'

theorem listOf_level {lv : Nat} {init : Bool} {t : Str} {l : List Action} {cs : List HCall}
    (h : HandledOptions (env c { st with level := lv }) init t cs) (hl : ActionList cs l) : ListOf st c init t l := by
  obtain ⟨evD, evR, h1, h2, rfl⟩ := h
  refine ⟨_, ⟨evD, evR, ?_, unrolls_level (lv' := st.level) h2, rfl⟩, hl⟩
  by_cases hc : init = true ∧ c.hasSection st.defaultName = true
  · rw [if_pos (show init = true ∧ (env c st).cfg.hasSection (env c st).defaultName = true from hc)]
    rw [if_pos (show init = true ∧ (env c { st with level := lv }).cfg.hasSection
      (env c { st with level := lv }).defaultName = true from hc)] at h1
    exact unrolls_level (lv' := st.level) h1
  · rw [if_neg (show ¬ (init = true ∧ (env c st).cfg.hasSection (env c st).defaultName = true) from hc)]
    rw [if_neg (show ¬ (init = true ∧ (env c { st with level := lv }).cfg.hasSection
      (env c { st with level := lv }).defaultName = true) from hc)] at h1
    exact h1

theorem noHook_level (lv : Nat) (h : NoHookOptions (env c st)) : NoHookOptions (env c { st with level := lv }) := h

/-! ### operations of the base class -/

/-- Every list is as in `a`, or made from the configuration `c`. -/
def Upd (st : Settings) (c : Cfg) (x : Str → Prop) (a b : Actions) : Prop :=
  ∀ t, Dict.get? b t = Dict.get? a t ∨
    ∃ init l, Dict.get? b t = some l ∧ ListOf st c init t l ∧ (init = true ∨ x t)

theorem upd_inv (hn : NoHookOptions (env c st)) (lv : Nat) (x : Str → Prop) (a : Actions) :
    ObjInv (env c { st with level := lv }) n (fun s i f => i = true ∨ f = false ∨ x s)
      (fun o : Obj Shared Actions => Upd st c x a o.self) where
  full _ := .inl rfl
  parse := by
    intro s i f o hA ho
    cases hx : parseSection (env c { st with level := lv }) n s i f o with
    | mk y o' =>
      have hfail : (f = false ∨ ∀ r, y ≠ .ok r) → o'.self = o.self := by
        intro h
        have := parseSection_self (noHook_level lv hn) n s i f o (by rw [hx]; exact h)
        rwa [hx] at this
      cases f with
      | false => intro t; rw [hfail (.inl rfl)]; exact ho t
      | true =>
        cases y with
        | ok r =>
          obtain ⟨cs, L, h1, h2, _, h4, h5⟩ := C47_actions (noHook_level lv hn) hx
          intro t
          by_cases ht : t = s
          · subst ht
            refine .inr ⟨i, L, h4, listOf_level h1 h2, ?_⟩
            rcases hA with h | h | h
            · exact .inl h
            · cases h
            · exact .inr h
          · show Dict.get? o'.self t = _ ∨ _
            rw [h5 t ht]
            exact ho t
        | exc e => intro t; rw [hfail (.inr fun r h => by cases h)]; exact ho t
        | diverge => intro t; rw [hfail (.inr fun r h => by cases h)]; exact ho t
  mark _ _ h := h
  event _ _ _ h := h
  write _ _ _ h _ := h
  put _ _ _ _ h := h

/-- What a direct parse without initialization may add. -/
def bare (op : EdOp) (t : Str) : Prop := op = .parseSection t false true

theorem exec_upd (hn : NoHookOptions (env c st)) (lv : Nat) (op : EdOp) (o : Obj Shared Actions) :
    Upd st c (bare op) o.self (op.exec (env c { st with level := lv }) n o).2.self := by
  refine (upd_inv (n := n) hn lv (bare op) o.self).exec op ?_ o fun t => .inl rfl
  rintro s i f rfl
  cases i with
  | true => exact .inl rfl
  | false =>
    cases f with
    | true => exact .inr (.inr rfl)
    | false => exact .inr (.inl rfl)

theorem touchParse_self (st : Settings) (c : Cfg) (s : Str) (i : Bool) (o : Obj Shared Actions) :
    (touchParse (env c st) s i o).2.self = o.self := by
  by_cases hs : s = []
  · subst hs; rfl
  · cases i with
    | true =>
      rw [touchParse_init _ hs]
      have := keepsSelf_hookInit c st { sectionName := s, sectionRoot := s, handlerName := py!"handler_initialize" }
        { toCore := startCore (env c st) s o.toCore, processed := [], log := [] }
      generalize callHandler (env c st) _ _ _ = x at this ⊢
      obtain ⟨r, w⟩ := x
      cases r <;> exact this
    | false =>
      unfold touchParse
      simp only [M.modify_bind, if_neg hs, Bool.false_eq_true, if_false]
      rw [M.bind_def, liftW_apply]
      have := keepsSelf_log (env c st) (.sectionEntry s)
        { toCore := startCore (env c st) s o.toCore, processed := [], log := [] }
      simp only [startCore] at this
      generalize logAdd (env c st) _ _ = x at this ⊢
      obtain ⟨r, w⟩ := x
      cases r <;> exact this

theorem touchOwner_self (st : Settings) (c : Cfg) (s : Str) (o : Obj Shared Actions) :
    (touchOwner (env c st) s o).2.self = o.self := by
  rw [touchOwner_apply]
  split
  · rfl
  · rw [touchParse_self]

theorem touch_self (st : Settings) (c : Cfg) (op : EdOp) (o : Obj Shared Actions) :
    (op.touch (env c st) o).2.self = o.self := by
  have owner : ∀ s, ((do let _ ← touchOwner (env c st) s; pure true : M (Obj Shared Actions) Bool) o).2.self = o.self := by
    intro s
    have := touchOwner_self st c s o
    rw [M.bind_def]
    generalize touchOwner (env c st) s o = x at this ⊢
    obtain ⟨r, o'⟩ := x
    cases r <;> exact this
  cases op with
  | parseSection s i f => exact touchParse_self st c s i o
  | hasOption s k => exact touchOwner_self st c s o
  | get s => exact owner s
  | getOption s k => exact owner s
  | assertSection s b => exact owner s
  | sections a => cases a <;> rfl
  | _ => rfl

/-- An operation that makes no access to the file parses nothing. -/
theorem touch_false_self (E : Env Shared Actions) (n : Nat) (op : EdOp) {o o' : Obj Shared Actions}
    (h : op.touch E o = (.ok false, o')) : (op.exec E n o).2.self = o.self := by
  have owner : ∀ {s : Str}, (do let _ ← touchOwner E s; pure true : M (Obj Shared Actions) Bool) o ≠ (.ok false, o') := by
    intro s hs
    rw [M.bind_def] at hs
    cases ht : touchOwner E s o with
    | mk y o1 =>
      rw [ht] at hs
      cases y <;> cases hs
  cases op with
  | parseSection s i f => exact absurd (touchParse_ok E s i h) (by simp)
  | hasOption s k =>
    have hc := touchOwner_false E s h
    change ((edHasOption _ n s k >>= _) o).2.self = _
    rw [M.bind_ok (edHasOption_checked hc k)]
    rfl
  | get s => exact absurd h owner
  | getOption s k => exact absurd h owner
  | assertSection s b => exact absurd h owner
  | sections a => cases a <;> first | rfl | cases h
  | hasSectionNoParse s => rfl
  | addSection s f =>
    change (if f = true ∨ Dict.mem o.data s = false then { o with data := Dict.set o.data s [] } else o).self = _
    split <;> rfl
  | parseAll | keys | len | hasSection | options | getItem | itemsAll | items | assertFile | set => cases h

/-- The lists of `g` are those of `f`, or made from the configuration of `g`. -/
def Updates (st : Settings) (x : Str → Prop) (f g : Full Shared Actions) : Prop :=
  g.obj.self = f.obj.self ∨ ∃ c, g.cfg = some c ∧ Upd st c x f.obj.self g.obj.self

theorem loadFiles_ok {files : Option (List Str)} {ds : List Str} {c : Cfg} (h : (loadFiles fs files ds).1 = .ok c) :
    (loadFiles fs files ds).2 = some c := by
  unfold loadFiles at h ⊢
  split at h
  · cases h
  · cases h
  · split at h
    · cases h
    · rename_i h1
      rw [if_neg h1]
      split at h
      · cases h; rfl
      · split at h <;> cases h

theorem configdata_ok {f f' : Full Shared Actions} {c : Cfg} (hd : f.configdata fs = (.ok c, f')) :
    f'.cfg = some c ∧ f' = { f with cfg := some c } := by
  unfold Full.configdata at hd
  split at hd
  · rename_i h
    cases hd
    exact ⟨h, by rw [← h]⟩
  · dsimp only at hd
    cases h : (loadFiles fs f.files f.delimiters).1 with
    | error e => rw [h] at hd; cases hd
    | ok c' =>
      rw [h, loadFiles_ok h] at hd
      cases hd
      exact ⟨rfl, rfl⟩

theorem configdata_obj (fs : FS) (f : Full Shared Actions) : (f.configdata fs).2.obj = f.obj := by
  unfold Full.configdata
  split <;> rfl

theorem runOp_getItem (K : Env Shared Actions) (n : Nat) (s : Str) {f g : Full Shared Actions} {c : Cfg}
    (hc : f.configdata fs = (.ok c, g)) :
    f.runOp K n fs (.getItem s) =
      (((EdOp.getItem s).exec (f.env K c) n f.obj).1, { g with obj := ((EdOp.getItem s).exec (f.env K c) n f.obj).2 }) := by
  have hgo := configdata_ok hc
  unfold Full.runOp
  cases hf : f.cfg with
  | some c' =>
    have : c' = c ∧ f = g := by
      unfold Full.configdata at hc
      rw [hf] at hc
      cases hc
      exact ⟨rfl, rfl⟩
    obtain ⟨rfl, rfl⟩ := this
    dsimp only
    rw [missing_parses K c' (show (EdOp.getItem s).parses f.obj = none from rfl), hf]
  | none =>
    have ht : (EdOp.getItem s).touch (f.env K emptyCfg) f.obj = (.ok true, f.obj) := rfl
    dsimp only
    rw [ht]
    dsimp only
    rw [hc]

theorem runOp_updates (op : EdOp) (f : Full Shared Actions)
    (hn : ∀ c, (f.runOp (cls st) n fs op).2.cfg = some c → NoHookOptions (env c st)) :
    Updates st (bare op) f (f.runOp (cls st) n fs op).2 := by
  unfold Full.runOp at hn ⊢
  cases hf : f.cfg with
  | some c =>
    rw [hf] at hn
    exact .inr ⟨c, rfl, exec_upd (hn c rfl) f.level op f.obj⟩
  | none =>
    rw [hf] at hn
    dsimp only at hn ⊢
    have hts := touch_self { st with level := f.level } emptyCfg op f.obj
    rw [← full_env] at hts
    cases ht : op.touch (f.env (cls st) emptyCfg) f.obj with
    | mk x o =>
      rw [ht] at hn hts
      cases x with
      | ok b =>
        cases b with
        | false => exact .inl (touch_false_self _ n op ht)
        | true =>
          dsimp only at hn ⊢
          cases hd : f.configdata fs with
          | mk r f' =>
            rw [hd] at hn
            have hx : (f.configdata fs).2 = f' := by rw [hd]
            cases r with
            | ok c =>
              have hc : f'.cfg = some c := (configdata_ok hd).1
              exact .inr ⟨c, hc, exec_upd (hn c hc) f.level op f.obj⟩
            | exc e => exact .inl hts
            | diverge =>
              refine .inl ?_
              rw [← hx]
              unfold Full.configdata
              rw [hf]
      | exc e => exact .inl hts
      | diverge => exact .inl hts

theorem Updates.mono {x y : Str → Prop} (h : ∀ t, x t → y t) {f g : Full Shared Actions} (hu : Updates st x f g) :
    Updates st y f g := by
  rcases hu with hu | ⟨c, hc, hu⟩
  · exact .inl hu
  · refine .inr ⟨c, hc, fun t => ?_⟩
    rcases hu t with h1 | ⟨i, l, h1, h2, h3⟩
    · exact .inl h1
    · exact .inr ⟨i, l, h1, h2, h3.imp id (h t)⟩

section
variable {E : Env Shared Actions} {A : Str → Bool → Bool → Prop} {P : Obj Shared Actions → Prop} (hP : ObjInv E n A P)
include hP

theorem keeps_genSection (delim s : Str) : Keeps P (genSection E n delim s) := by
  refine (hP.hasSection s).bind fun b => ?_
  split
  · exact (hP.options s).bind fun _ => .same fun _ => rfl
  · exact .same fun _ => rfl

theorem keeps_genAll (delim : Str) (l : List Str) : Keeps P (genAll E n delim l) := by
  induction l with
  | nil => exact .same fun _ => rfl
  | cons s l ih => exact (keeps_genSection hP delim s).bind fun _ => ih.bind fun _ => .same fun _ => rfl

theorem keeps_unrollBody (sec : Option Str) (space : Bool) : Keeps P (unrollBody E n sec space) := by
  cases sec with
  | none => exact (keeps_genAll hP _ _).bind fun _ => .same fun _ => rfl
  | some s => exact (keeps_genSection hP _ s).bind fun _ => .same fun _ => rfl

end

theorem unrollSelf_updates (sec : Option Str) (sp : Bool) (f : Full Shared Actions)
    (hn : ∀ c, (f.unrollSelf (cls st) n fs sec sp).2.cfg = some c → NoHookOptions (env c st)) :
    Updates st (fun _ => False) f (f.unrollSelf (cls st) n fs sec sp).2 := by
  unfold Full.unrollSelf at hn ⊢
  dsimp only at hn ⊢
  cases hd : ({ f with level := 0 } : Full Shared Actions).configdata fs with
  | mk r f1 =>
    rw [hd] at hn
    have hx : f1.obj = f.obj := by
      have := configdata_obj fs { f with level := 0 }
      rwa [hd] at this
    cases r with
    | ok c =>
      dsimp only at hn ⊢
      have hc := (configdata_ok hd).1
      have key : NoHookOptions (env c st) → Upd st c (fun _ => False) f.obj.self
          (unrollBody (f1.env (cls st) c) n sec sp f1.obj).2.self := fun h =>
        keeps_unrollBody (upd_inv (n := n) h f1.level (fun _ => False) f.obj.self) sec sp f1.obj
          fun t => .inl (by rw [hx])
      generalize unrollBody (f1.env (cls st) c) n sec sp f1.obj = y at hn key ⊢
      obtain ⟨y, o⟩ := y
      cases y <;> exact .inr ⟨c, hc, key (hn c hc)⟩
    | exc e => exact .inl (by rw [hx])
    | diverge => exact .inl (by rw [hx])

/-- A direct parse without initialization. -/
def bareF (op : FOp) (t : Str) : Prop := op = .ed (.parseSection t false true)

theorem fop_updates (op : FOp) (f : Full Shared Actions)
    (hn : ∀ c, (op.exec (cls st) n fs f).2.cfg = some c → NoHookOptions (env c st)) :
    Updates st (bareF op) f (op.exec (cls st) n fs f).2 := by
  cases op with
  | files v =>
    refine .inl ?_
    cases v with
    | badType => rfl
    | one p => show ((f.assignFiles _).2).obj.self = _; unfold Full.assignFiles; dsimp only; split <;> rfl
    | many ps => show ((f.assignFiles _).2).obj.self = _; unfold Full.assignFiles; dsimp only; split <;> rfl
  | delims v => cases v <;> exact .inl rfl
  | level i => exact .inl rfl
  | configdata => exact .inl (congrArg (fun o => o.self) (configdata_obj fs f))
  | lastResult => exact .inl rfl
  | ed op => exact (runOp_updates op f hn).mono fun t h => congrArg FOp.ed h
  | unroll sec sp b =>
    cases b with
    | true =>
      refine .inl ?_
      show ((f.unroll (cls st) n fs sec sp true).2).obj.self = _
      unfold Full.unroll
      rw [if_pos rfl]
      split <;> rfl
    | false => exact (unrollSelf_updates sec sp f hn).mono fun t h => h.elim

/-! ### operations of this class -/

/-- The code keeps the lists and the configuration. -/
def Calm {α : Type} (m : M Life α) : Prop :=
  ∀ f, (m f).2.full.obj.self = f.full.obj.self ∧ (m f).2.full.cfg = f.full.cfg

theorem Calm.bind {α β : Type} {m : M Life α} {g : α → M Life β} (h : Calm m) (hg : ∀ a, Calm (g a)) :
    Calm (m >>= g) := by
  intro f
  have h1 := h f
  rw [M.bind_def]
  cases hm : m f with
  | mk x f' =>
    rw [hm] at h1
    cases x with
    | ok a => exact ⟨(hg a f').1.trans h1.1, (hg a f').2.trans h1.2⟩
    | exc e => exact h1
    | diverge => exact h1

theorem calm_pure {α : Type} (a : α) : Calm (pure a) := fun _ => ⟨rfl, rfl⟩

/-- Code on the console that keeps the lists. -/
def CalmC {α : Type} (m : M Console α) : Prop := ∀ c, (m c).2.st.obj.self = c.st.obj.self

theorem CalmC.bind {α β : Type} {m : M Console α} {g : α → M Console β} (h : CalmC m) (hg : ∀ a, CalmC (g a)) :
    CalmC (m >>= g) := by
  intro f
  have h1 := h f
  rw [M.bind_def]
  cases hm : m f with
  | mk x f' =>
    rw [hm] at h1
    cases x with
    | ok a => exact (hg a f').trans h1
    | exc e => exact h1
    | diverge => exact h1

theorem calm_console {α : Type} {m : M Console α} (h : CalmC m) : Calm (onConsole m) := fun _ => ⟨h _, rfl⟩

theorem calmC_state {α : Type} {m : M State α} (h : ∀ P, KeepsLists P m) : CalmC (onState m) := fun c =>
  h (fun a => a = c.st.obj.self) c.st rfl

theorem calmC_print (t : Str) : CalmC (print t) := fun _ => rfl

theorem calmC_rows (repr : Action → Str) (w : Nat) (l : List Action) : CalmC (printRows repr w l) := by
  induction l with
  | nil => exact fun _ => rfl
  | cons a l ih =>
    refine (calmC_print _).bind fun _ => CalmC.bind ?_ fun t => (calmC_print _).bind fun _ => ih
    intro c
    cases actionText repr a <;> rfl

theorem calmC_vars (filter : FilterArg) (only : Bool) (l : List (Str × Str)) : CalmC (printVars filter only l) := by
  induction l generalizing only with
  | nil => exact fun _ => rfl
  | cons kv l ih =>
    obtain ⟨k, v⟩ := kv
    cases filter with
    | none => exact (calmC_print _).bind fun _ => ih _
    | other => exact (calmC_print _).bind fun _ => ih _
    | list fs =>
      refine CalmC.bind (fun c => ?_) fun t => (calmC_print _).bind fun _ => ih _
      cases filterHits fs k <;> rfl

theorem calmC_prettyEnvvars (filter : FilterArg) (only : Option Bool) : CalmC (prettyEnvvars filter only) := by
  cases only with
  | none => cases filter <;> exact fun _ => rfl
  | some only =>
    cases filter with
    | other => exact fun _ => rfl
    | none => exact (calmC_print _).bind fun _ => CalmC.bind (fun _ => rfl) fun c => (calmC_vars _ _ _).bind fun _ => fun _ => rfl
    | list fs => exact (calmC_print _).bind fun _ => CalmC.bind (fun _ => rfl) fun c => (calmC_vars _ _ _).bind fun _ => fun _ => rfl

/-- `m` changes the lists only as a look-up would. -/
def Good {α : Type} (st : Settings) (x : Str → Prop) (m : M Life α) : Prop :=
  ∀ f, (∀ c, (m f).2.full.cfg = some c → NoHookOptions (env c st)) → Updates st x f.full (m f).2.full

theorem Calm.good {α : Type} {m : M Life α} (h : Calm m) (x : Str → Prop) : Good st x m := fun f _ => .inl (h f).1

theorem Good.calm {α β : Type} {x : Str → Prop} {m : M Life α} {g : α → M Life β} (h : Good st x m)
    (hg : ∀ a, Calm (g a)) : Good st x (m >>= g) := by
  intro f hn
  have h1 := h f
  rw [M.bind_def] at hn ⊢
  cases hm : m f with
  | mk y f' =>
    rw [hm] at h1 hn
    cases y with
    | ok a =>
      have h2 := hg a f'
      dsimp only at hn h1 ⊢
      have h1 := h1 (by rw [← h2.2]; exact hn)
      unfold Updates at h1 ⊢
      rw [h2.1, h2.2]
      exact h1
    | exc e => exact h1 hn
    | diverge => exact h1 hn

theorem Calm.andThen {α β : Type} {x : Str → Prop} {m : M Life α} {g : α → M Life β} (h : Calm m)
    (hg : ∀ a, Good st x (g a)) : Good st x (m >>= g) := by
  intro f hn
  have h1 := h f
  rw [M.bind_def] at hn ⊢
  cases hm : m f with
  | mk y f' =>
    rw [hm] at h1 hn
    cases y with
    | ok a =>
      have h2 := hg a f' hn
      unfold Updates at h2 ⊢
      dsimp only at h1 h2 ⊢
      rw [← h1.1]
      exact h2
    | exc e => exact .inl h1.1
    | diverge => exact .inl h1.1

theorem good_runOp (op : EdOp) : Good st (bare op) (onFull (Full.runOp (cls st) n fs op)) :=
  fun f hn => runOp_updates op f.full hn

theorem good_look (s : Str) : Good st (fun _ => False) (lookForApply st n fs s) := by
  intro f hn
  have h := runOp_updates (st := st) (n := n) (fs := fs) (.getItem s) f.full
  unfold lookForApply at hn ⊢
  cases hr : f.full.runOp (cls st) n fs (.getItem s) with
  | mk x g =>
    rw [hr] at h hn
    have e : ∀ t, bare (.getItem s) t → False := fun t h => by cases h
    cases x with
    | ok v => exact (h hn).mono e
    | exc e' => cases e' <;> exact (h hn).mono e
    | diverge => exact (h hn).mono e

theorem good_apply (sys : Sys) (s : Str) : Good st (fun _ => False) (Life.apply sys st n fs s) := by
  refine (good_look s).calm fun _ => Calm.bind (fun _ => ⟨rfl, rfl⟩) fun f => calm_console (calmC_state fun P => ?_)
  exact (keepsLists_actionsOf s).bind fun l => keepsLists_applyLoop l 0

theorem good_listActions (repr : Action → Str) (s : Str) : Good st (fun _ => False) (Life.listActions repr st n fs s) := by
  have h1 : Good st (fun _ => False) (onFull (Full.runOp (cls st) n fs (.getItem s))) := fun f hn =>
    (good_runOp _ f hn).mono fun t h => by cases h
  refine h1.calm fun _ => calm_console ?_
  exact (calmC_state fun P => keepsLists_actionsOf s).bind fun l => (calmC_print _).bind fun _ =>
    (calmC_print _).bind fun _ => calmC_rows _ _ _

theorem good_ensure (s : Str) : Good st (fun _ => False) (Life.ensureList st n fs s) := by
  have h1 : Good st (fun _ => False) (onFull (Full.runOp (cls st) n fs (.parseSection s true true))) := fun f hn =>
    (good_runOp _ f hn).mono fun t h => by cases h
  refine Calm.andThen (fun _ => ⟨rfl, rfl⟩) fun f => ?_
  split
  · exact h1.calm fun _ => calm_pure _
  · exact (calm_pure _).good _

theorem calm_event (E : Env Shared Actions) (ev : Event) (e : PyExc) :
    Calm (onConsole (onState (onObj (liftW (ecEvent E ev e))))) :=
  calm_console (calmC_state fun _ => keepsLists_world (keepsSelf_event _ _ _))

theorem good_script (sys : Sys) (s : Str) (hdr body sheb : Bool) (interp : Str) :
    Good st (fun _ => False) (Life.script sys st n fs s hdr body sheb interp) := by
  refine Calm.andThen (fun _ => ⟨rfl, rfl⟩) fun f => ?_
  split
  · exact ((calm_event _ _ _).bind fun _ => calm_pure _).good _
  · dsimp only
    split
    · refine (good_ensure s).calm fun _ => Calm.bind (calm_console (calmC_state fun P => ?_)) fun _ => calm_pure _
      exact (keepsLists_actionsOf s).bind fun l => keepsLists_world (keepsSelf_bodyLines _ _ _)
    · exact (calm_pure _).good _

theorem good_write (sys : Sys) (file s : Str) (hdr body sheb : Bool) (interp : Str) :
    Good st (fun _ => False) (Life.write sys st n fs file s hdr body sheb interp) := by
  refine Calm.andThen (fun _ => ⟨rfl, rfl⟩) fun f => ?_
  split
  · exact ((calm_event _ _ _).bind fun _ => calm_pure _).good _
  · exact (good_script sys s hdr body sheb interp).calm fun _ => Calm.bind (fun _ => ⟨rfl, rfl⟩) fun _ => calm_pure _

/-- A direct parse without initialization. -/
def bareL (op : LOp) (t : Str) : Prop := op = .base (.ed (.parseSection t false true))

theorem lop_updates (sys : Sys) (repr : Action → Str) (op : LOp) (ha : ¬ Assignment op) :
    Good st (bareL op) (op.exec sys repr st n fs) := by
  have no : ∀ {α : Type} {m : M Life α}, Good st (fun _ => False) m → Good st (bareL op) m :=
    fun h f hn => (h f hn).mono fun _ h => h.elim
  cases op with
  | base op =>
    refine Good.calm (fun f hn => ?_) fun _ => calm_pure _
    exact (fop_updates op f.full hn).mono fun t h => congrArg LOp.base h
  | actions => exact ((Calm.bind (fun _ => ⟨rfl, rfl⟩) fun _ => calm_pure _)).good _
  | setActions v =>
    cases v with
    | none => exact Calm.good (fun _ => ⟨rfl, rfl⟩) _
    | some a => exact absurd trivial ha
  | apply s => exact no ((good_apply sys s).calm fun _ => calm_pure _)
  | listActions s => exact no ((good_listActions repr s).calm fun _ => calm_pure _)
  | listVars filter only => exact ((calm_console (calmC_prettyEnvvars filter only)).bind fun _ => calm_pure _).good _
  | script s hdr body sheb interp => exact no ((good_script sys s hdr body sheb interp).calm fun _ => calm_pure _)
  | write file s hdr body sheb interp =>
    exact no ((good_write sys file s hdr body sheb interp).calm fun _ => calm_pure _)

theorem lrun_append (sys : Sys) (repr : Action → Str) (a b : List (FS × LOp)) (f : Life) :
    LOp.run sys repr st n (a ++ b) f = LOp.run sys repr st n b (LOp.run sys repr st n a f) := by
  induction a generalizing f with
  | nil => rfl
  | cons p a ih => exact ih _

end CPE.SetEnv
