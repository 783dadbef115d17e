import Verif.Proofs.Twin
import Verif.Proofs.Lazy
import Verif.Props.Access
import Verif.Props.Example
/-
Theorems on the life cycle of an object: changing files and delimiters, failed loads, lazy loading, and the exception
level around `unroll_to_str` (C23, C24, C25, C28, C41).
-/
namespace CPE.Props
open Spec
variable {δ ω : Type} {K : Env δ ω} {n m : Nat} {f : Full δ ω} {s : Str}

namespace LifeExample

/-- Two files on disk, and one that repeats an option. -/
def disk : FS := fun p =>
  if p = py!"a.ini" then .file py!"[A]\nkey: 1\n[B]\nuse A:\nmine\n"
  else if p = py!"b.ini" then .file py!"[A]\nkey: 2\n[C]\nuse A\n"
  else if p = py!"dup.ini" then .file py!"[A]\nkey: 1\nkey: 2\n"
  else if p = py!"bad.ini" then .file py!"[A]\nkey: 1\n[A]\nother: 2\n"
  else if p = py!"d" then .dir
  else .absent

/-- The class of `Verif/Props/Example`. -/
def cls : Env (List Str) Unit := Example.env

/-- A new object on a.ini. -/
def fA : Full (List Str) Unit := ((Full.new cls ()).setFiles (.one py!"a.ini")).2

/-- The same after `get("A")`. -/
def fA1 : Full (List Str) Unit := ((FOp.ed (.get py!"A")).exec cls 9 disk fA).2

end LifeExample

/-! ### C41 lazy loading -/

/-- C41: loading is lazy but that cannot be seen: if the files load, every operation gives the same result and leaves
the same data as if `configparserdata` had been read before it. -/
theorem C41_lazy_loading (fs : FS) (op : EdOp) {c : Cfg} (hc : (f.configdata fs).1 = .ok c) :
    ((FOp.ed op).exec K (n + 1) fs f).1 = ((FOp.ed op).exec K (n + 1) fs (FOp.configdata.exec K (n + 1) fs f).2).1 ∧
    ((FOp.ed op).exec K (n + 1) fs f).2.obj =
      ((FOp.ed op).exec K (n + 1) fs (FOp.configdata.exec K (n + 1) fs f).2).2.obj := by
  obtain ⟨h1, h2⟩ := runOp_loaded' K n fs op f hc
  have e : (FOp.configdata.exec K (n + 1) fs f).2 = (f.configdata fs).2 := rfl
  have hc2 : (Full.configdata fs (f.configdata fs).2).1 = .ok c ∧ (f.configdata fs).2.obj = f.obj ∧
      (f.configdata fs).2.level = f.level := by
    unfold Full.configdata at hc ⊢
    cases hf : f.cfg with
    | some c' => rw [hf] at hc; dsimp only; rw [hf]; exact ⟨hc, rfl, rfl⟩
    | none =>
      rw [hf] at hc
      dsimp only at hc ⊢
      cases hl : loadFiles fs f.files f.delimiters with
      | mk r x =>
        rw [hl] at hc
        have hx : x = some c := by
          unfold loadFiles at hl
          cases r with
          | error e => cases hc
          | ok c1 =>
            cases hc
            split at hl
            · cases hl
            · cases hl
            · split at hl
              · cases hl
              · split at hl
                · cases hl; rfl
                · split at hl <;> cases hl
        subst hx
        exact ⟨rfl, rfl, rfl⟩
  obtain ⟨g1, g2⟩ := runOp_loaded' K n fs op (f.configdata fs).2 hc2.1
  have ee : (f.configdata fs).2.env K c = f.env K c := by unfold Full.env; rw [hc2.2.2]
  have ef : (f.configdata fs).2.files = f.files := by unfold Full.configdata; split <;> rfl
  have em : ∀ r, (f.configdata fs).2.missing K op c r = f.missing K op c r := by
    intro r
    unfold Full.missing
    rw [ef, ee, hc2.2.1]
  rw [em] at g1
  rw [ee, hc2.2.1] at g1 g2
  rw [e]
  exact ⟨congrArg (Out.map' _) (h1.trans g1.symm), h2.trans g2.symm⟩

example : (LifeExample.fA.configdata LifeExample.disk).1 = .ok
    { sections := [(py!"A", [(py!"key", some py!"1")]), (py!"B", [(py!"use A", some []), (py!"mine", none)])],
      common := [], commonName := py!"CONFIGPARSERENHANCED_COMMON" } := by decide +kernel

/-! ### C23 changing the files -/

/-- C23: once a file list has been assigned, assigning another one makes the next access read the new files, as the
same object that never loaded anything would. -/
theorem C23_new_files_are_read {ps : List Str} (hf : f.files = some ps) {v : PathArg} (hv : (f.setFiles v).1 = .ok ())
    (fs : FS) : ∃ qs, (v = .many (qs.map some) ∨ ∃ q, qs = [q] ∧ v = .one q) ∧ (f.setFiles v).2.files = some qs ∧
      (FOp.configdata.exec K n fs (f.setFiles v).2).1 =
        match (loadFiles fs (some qs) f.delimiters).1 with
        | .ok c => .ok (.cfg c)
        | .error e => .exc e := by
  have hpre : ∀ ps : List (Option Str), (pathPrefix ps).2 = true → ps = (pathPrefix ps).1.map some := by
    intro ps
    induction ps with
    | nil => intro _; rfl
    | cons p ps ih =>
      cases p with
      | none => intro h; cases h
      | some p => intro h; simp only [pathPrefix, List.map_cons]; rw [← ih h]
  cases v with
  | badType => cases hv
  | one q =>
    refine ⟨[q], .inr ⟨q, rfl, rfl⟩, rfl, ?_⟩
    unfold Full.setFiles Full.assignFiles
    dsimp only
    rw [if_pos (by rw [hf]; rfl)]
    simp only [FOp.exec, Full.configdata, Full.delimiters, pathPrefix]
    cases (loadFiles fs (some [q]) _).1 <;> rfl
  | many qs =>
    have hq : (pathPrefix qs).2 = true := by
      unfold Full.setFiles Full.assignFiles at hv
      dsimp only at hv
      split at hv
      · assumption
      · cases hv
    refine ⟨(pathPrefix qs).1, .inl (congrArg _ (hpre qs hq)), rfl, ?_⟩
    unfold Full.setFiles Full.assignFiles
    dsimp only
    rw [if_pos (by rw [hf]; rfl)]
    simp only [FOp.exec, Full.configdata, Full.delimiters]
    cases (loadFiles fs (some (pathPrefix qs).1) _).1 <;> rfl

theorem access_parses {o : Obj δ ω} (hs : s ∈ o.checked) (op : EdOp) (ha : IsAccess s op) : op.parses o = none := by
  cases op <;> first | rfl | (cases ha; exact if_neg (fun h => h hs)) | exact absurd ha (by simp [IsAccess])

/-- C23: the old sections are not forgotten: whatever could be asked about a section that was parsed before the switch
is answered as without the switch (provided the new files load), whether or not the new files have that section. -/
theorem C23_parsed_sections_keep_old_data (fs fs' : FS) (hs : s ∈ f.obj.checked) {v : PathArg} {c c' : Cfg}
    (hold : (f.configdata fs).1 = .ok c) (hnew : ((f.setFiles v).2.configdata fs').1 = .ok c')
    (op : EdOp) (ha : IsAccess s op) :
    ((FOp.ed op).exec K (m + 1) fs' (f.setFiles v).2).1 = ((FOp.ed op).exec K (n + 1) fs f).1 ∧
    Dict.get? ((FOp.ed op).exec K (m + 1) fs' (f.setFiles v).2).2.obj.data s = Dict.get? f.obj.data s := by
  have ho : (f.setFiles v).2.obj.checked = f.obj.checked ∧ (f.setFiles v).2.obj.data = f.obj.data := by
    unfold Full.setFiles Full.assignFiles
    cases v with
    | badType => exact ⟨rfl, rfl⟩
    | one p => dsimp only; split <;> exact ⟨rfl, rfl⟩
    | many ps => dsimp only; split <;> exact ⟨rfl, rfl⟩
  obtain ⟨h1, h2⟩ := runOp_loaded' K n fs op f hold
  obtain ⟨g1, g2⟩ := runOp_loaded' K m fs' op (f.setFiles v).2 hnew
  rw [missing_parses K c (access_parses hs op ha)] at h1
  rw [missing_parses K c' (access_parses (by rw [ho.1]; exact hs) op ha)] at g1
  rw [access_checked hs op ha] at h1 h2
  rw [access_checked (by rw [ho.1]; exact hs) op ha, ho.2] at g1 g2
  refine ⟨congrArg (Out.map' _) (g1.trans h1.symm), ?_⟩
  change Dict.get? ((f.setFiles v).2.runOp K (m + 1) fs' op).2.obj.data s = _
  rw [g2, ho.2]

/-- C23: how a section gets parsed: by any access, successful or not, to a section of the loaded files. -/
theorem C23_access_marks (fs : FS) {c : Cfg} (hold : (f.configdata fs).1 = .ok c) (hf : c.hasSection s = true)
    (op : EdOp) (ha : IsAccess s op) : s ∈ ((FOp.ed op).exec K (n + 1) fs f).2.obj.checked := by
  obtain ⟨_, h2⟩ := runOp_loaded' K n fs op f hold
  change s ∈ (f.runOp K (n + 1) fs op).2.obj.checked
  rw [h2, access_marks (E := f.env K c) hf op ha]
  exact parseOwner_marks _ _ _ _ _

open LifeExample in
example : py!"A" ∈ fA1.obj.checked ∧
    (∃ c, (fA1.configdata disk).1 = .ok c) ∧
    ∃ c, ((fA1.setFiles (.one py!"b.ini")).2.configdata disk).1 = .ok c := by
  refine ⟨by decide +kernel, ⟨_, rfl⟩, ⟨_, rfl⟩⟩

open LifeExample in
/-- The stale value is served although the new file says 2. -/
example : ((FOp.ed (.getOption py!"A" py!"key")).exec cls 9 disk (fA1.setFiles (.one py!"b.ini")).2).1 =
    .ok (.ed (.str (some py!"1"))) := by rfl

/-- Nothing was ever asked about `s`, and nothing was written there. -/
def Untouched (s : Str) (o : Obj δ ω) : Prop :=
  s ∉ o.checked ∧ (Dict.get? o.data s = none ∨ Dict.get? o.data s = some [])

/-- Operations that neither ask about `s` nor edit it. -/
def Avoids (s : Str) : FOp → Prop
  | .ed op => op.mayParse s = false ∧ op.edits s = false
  | .unroll _ _ base => base = true
  | _ => True

/-- C23: a section that was never asked for and is in the new files is resolved from the new files. -/
theorem C23_other_sections_are_new (fs : FS) (hu : Untouched s f.obj) {v : PathArg} {c : Cfg}
    (hnew : ((f.setFiles v).2.configdata fs).1 = .ok c) (hs : c.hasSection s = true)
    (op : EdOp) (ha : IsAccess s op) {r : FVal δ} (h : ((FOp.ed op).exec K (n + 1) fs (f.setFiles v).2).1 = .ok r) :
    ∃ d x, Resolved { K with cfg := c, level := f.level } s d ∧ rightAnswer d op = some x ∧ r = .ed x := by
  have ho : (f.setFiles v).2.obj.checked = f.obj.checked ∧ (f.setFiles v).2.obj.data = f.obj.data ∧
      (f.setFiles v).2.level = f.level := by
    unfold Full.setFiles Full.assignFiles
    cases v with
    | badType => exact ⟨rfl, rfl, rfl⟩
    | one p => dsimp only; split <;> exact ⟨rfl, rfl, rfl⟩
    | many ps => dsimp only; split <;> exact ⟨rfl, rfl, rfl⟩
  obtain ⟨h1, _⟩ := runOp_loaded' K n fs op (f.setFiles v).2 hnew
  change Out.map' FVal.ed ((f.setFiles v).2.runOp K (n + 1) fs op).1 = .ok r at h
  have h : Out.map' FVal.ed (op.exec ((f.setFiles v).2.env K c) (n + 1) (f.setFiles v).2.obj).1 = .ok r := by
    cases hr : ((f.setFiles v).2.runOp K (n + 1) fs op).1 with
    | ok x => rw [hr] at h h1; rw [missing_ok h1.symm]; exact h
    | exc e => rw [hr] at h; cases h
    | diverge => rw [hr] at h; cases h
  have hset : Settled ((f.setFiles v).2.env K c) s (f.setFiles v).2.obj := by
    refine ⟨fun hh => ?_, fun _ => ?_⟩
    · rw [ho.1] at hh; exact absurd hh hu.1
    · rw [ho.2.1]; exact hu.2
  cases hx : (op.exec ((f.setFiles v).2.env K c) (n + 1) (f.setFiles v).2.obj).1 with
  | ok x =>
    rw [hx] at h
    cases h
    obtain ⟨d, h2, h3⟩ := settled_answer hset hs op ha hx
    unfold Full.env at h2
    rw [ho.2.2] at h2
    exact ⟨d, x, h2, h3, rfl⟩
  | exc e => rw [hx] at h; cases h
  | diverge => rw [hx] at h; cases h

/-- `m` does not mark `s` as parsed. -/
def NoMark {α : Type} (s : Str) (m : M (Obj δ ω) α) : Prop := ∀ o, s ∉ o.checked → s ∉ (m o).2.checked

theorem NoMark.bind {α β : Type} {m : M (Obj δ ω) α} {g : α → M (Obj δ ω) β} (h : NoMark s m)
    (hg : ∀ a, NoMark s (g a)) : NoMark s (m >>= g) := by
  intro o ho
  have h1 := h o ho
  rw [M.bind_def]
  cases hm : m o with
  | mk r o' =>
    rw [hm] at h1
    cases r with
    | ok a => exact hg a o' h1
    | exc e => exact h1
    | diverge => exact h1

theorem NoMark.same {α : Type} {m : M (Obj δ ω) α} (h : ∀ o, (m o).2.checked = o.checked) : NoMark s m :=
  fun o ho => by rw [h]; exact ho

theorem NoMark.pure' {α : Type} (a : α) : NoMark s (pure a : M (Obj δ ω) α) := .same fun _ => rfl

theorem NoMark.raise' {α : Type} (e : PyExc) : NoMark s (M.raise e : M (Obj δ ω) α) := .same fun _ => rfl

theorem notin_setAdd {t : Str} (h : t ≠ s) {l : List Str} (hl : s ∉ l) : s ∉ setAdd l t := by
  unfold setAdd
  split
  · exact hl
  · simp only [List.mem_cons]
    rintro (h1 | h1)
    · first | exact hl h1 | exact h h1.symm
    · first | exact h h1.symm | exact hl h1 | exact h (by simpa using h1.symm) | simp_all

theorem NoMark.parseSection (E : Env δ ω) (n : Nat) {t : Str} (h : t ≠ s) (i fin : Bool) :
    NoMark s (parseSection E n t i fin) := by
  intro o ho
  by_cases ht : t = []
  · subst ht; rw [parseSection_nil]; exact ho
  · rw [parseSection_checked E n ht]; exact notin_setAdd h ho

theorem NoMark.parseOwner (E : Env δ ω) (n : Nat) {t : Str} (h : t ≠ s) (force : Bool) :
    NoMark s (parseOwner E n t force) := by
  intro o ho
  rw [parseOwner_apply]
  split
  · have := NoMark.parseSection E n h true true { o with checked := setAdd o.checked t } (notin_setAdd h ho)
    generalize CPE.parseSection E n t true true _ = x at this
    obtain ⟨r, o'⟩ := x
    cases r <;> exact this
  · exact ho

theorem NoMark.edHasSection (E : Env δ ω) (n : Nat) {t : Str} (h : t ≠ s) : NoMark s (edHasSection E n t) := by
  unfold CPE.edHasSection
  split
  · intro o ho
    rw [M.read_bind]
    split
    · exact (NoMark.parseOwner E n h false).bind (fun _ => .same fun _ => rfl) o ho
    · exact ho
  · exact .same fun _ => rfl

theorem NoMark.edOptions (E : Env δ ω) (n : Nat) {t : Str} (h : t ≠ s) : NoMark s (edOptions E n t) := by
  refine (NoMark.edHasSection E n h).bind fun b => ?_
  split
  · exact .same fun o => by rw [edData_same]
  · exact .raise' _

theorem NoMark.edHasOption (E : Env δ ω) (n : Nat) {t : Str} (h : t ≠ s) (k : Str) : NoMark s (edHasOption E n t k) :=
  (NoMark.parseOwner E n h false).bind fun _ => .same fun _ => rfl

theorem NoMark.edGet (E : Env δ ω) (n : Nat) {t : Str} (h : t ≠ s) : NoMark s (edGet E n t) := by
  refine (NoMark.parseOwner E n h false).bind fun _ => (NoMark.edHasSection E n h).bind fun b => ?_
  split
  · exact .same fun o => by rw [edData_same]
  · exact .raise' _

theorem NoMark.edGetOption (E : Env δ ω) (n : Nat) {t : Str} (h : t ≠ s) (k : Str) : NoMark s (edGetOption E n t k) := by
  refine (NoMark.parseOwner E n h false).bind fun _ => (NoMark.edHasSection E n h).bind fun b => ?_
  split
  · refine (NoMark.edHasOption E n h k).bind fun x => ?_
    split
    · refine NoMark.bind (.same fun o => by rw [edData_same]) fun d => ?_
      cases Dict.get? d k with
      | none => exact .raise' _
      | some v => exact .pure' _
    · exact .raise' _
  · exact .raise' _

/-- Operations that do not ask about `s` do not mark it. -/
theorem NoMark.exec (E : Env δ ω) (n : Nat) (op : EdOp) (h : op.mayParse s = false) : NoMark s (op.exec E n) := by
  have ne : ∀ {t : Str}, (t == s) = false → t ≠ s := by intro t ht; simpa using ht
  cases op with
  | parseSection t i fin => exact (NoMark.parseSection E n (ne h) i fin).bind fun _ => .pure' _
  | keys => exact .pure' _
  | len => exact .pure' _
  | sections a =>
    cases a with
    | no => exact NoMark.bind (.pure' _) fun _ => .pure' _
    | otherStr => exact NoMark.bind (.raise' _) fun _ => .pure' _
    | otherType => exact NoMark.bind (.raise' _) fun _ => .pure' _
    | yes => cases h
    | force => cases h
  | hasSection t => exact (NoMark.edHasSection E n (ne h)).bind fun _ => .pure' _
  | hasSectionNoParse t => exact NoMark.bind (.same fun _ => rfl) fun _ => .pure' _
  | options t => exact (NoMark.edOptions E n (ne h)).bind fun _ => .pure' _
  | getItem t => exact (NoMark.edOptions E n (ne h)).bind fun _ => .pure' _
  | items t => exact (NoMark.edOptions E n (ne h)).bind fun _ => .pure' _
  | hasOption t k => exact (NoMark.edHasOption E n (ne h) k).bind fun _ => .pure' _
  | get t => exact (NoMark.edGet E n (ne h)).bind fun _ => .pure' _
  | getOption t k => exact (NoMark.edGetOption E n (ne h) k).bind fun _ => .pure' _
  | assertSection t b =>
    refine NoMark.bind ?_ fun _ => .pure' _
    refine (NoMark.edGet E n (ne h)).bind fun d => ?_
    split
    · exact .pure' _
    · dsimp only
      split
      · exact NoMark.bind (.same fun _ => rfl) fun _ => .pure' _
      · exact .pure' _
  | addSection t b =>
    refine NoMark.bind ?_ fun _ => .pure' _
    refine .same fun o => ?_
    unfold edAddSection M.modify
    dsimp only
    split <;> rfl
  | set t k v =>
    refine NoMark.bind ?_ fun _ => .pure' _
    refine (NoMark.edHasSection E n (ne h)).bind fun b => ?_
    have hm : NoMark s (M.modify fun o : Obj δ ω =>
        { o with data := Dict.set o.data t (Dict.set ((Dict.get? o.data t).getD []) k v) }) := .same fun _ => rfl
    split
    · refine NoMark.bind ?_ fun _ => hm
      refine .same fun o => ?_
      unfold edAddSection M.modify
      dsimp only
      split <;> rfl
    · exact hm
  | parseAll | itemsAll | assertFile => cases h

theorem untouched_exec (E : Env δ ω) (n : Nat) (op : EdOp) (h : op.mayParse s = false) (he : op.edits s = false)
    (o : Obj δ ω) (ho : Untouched s o) : Untouched s (op.exec E n o).2 := by
  have h1 := NoMark.exec E n op h o ho.1
  have hset : Settled E s o := ⟨fun hh => absurd hh ho.1, fun _ => ho.2⟩
  have h2 := KeepsSettled.exec n op he o hset (by rw [h]; intro hh; cases hh)
  exact ⟨h1, h2.2 h1⟩

theorem callHandler_frame (E : Env δ ω) (h : Handler δ ω) (c : HCall) (w : World δ ω) :
    (callHandler E h c w).2.data = w.data ∧ (callHandler E h c w).2.checked = w.checked := by
  have hl : ∀ (l : LogEntry) (w : World δ ω), (logAdd E l w).2.data = w.data ∧ (logAdd E l w).2.checked = w.checked ∧
      (logAdd E l w).1 = .ok () := by
    intro l w
    unfold logAdd M.modify
    dsimp only
    split <;> exact ⟨rfl, rfl, rfl⟩
  have hb : ∀ w : World δ ω, (runHandlerBody h c w).2.data = w.data ∧ (runHandlerBody h c w).2.checked = w.checked := by
    intro w
    unfold runHandlerBody
    dsimp only
    split <;> exact ⟨rfl, rfl⟩
  have hr : ∀ r (w : World δ ω), (checkRval E r w).2.data = w.data ∧ (checkRval E r w).2.checked = w.checked := by
    intro r w
    unfold checkRval
    cases r with
    | notInt => exact ⟨rfl, rfl⟩
    | int i =>
      dsimp only
      split
      · exact ⟨rfl, rfl⟩
      · split <;> exact ⟨rfl, rfl⟩
  unfold callHandler
  split
  · unfold operationHandler
    have a1 := hl (.handlerEntry c.handlerName c.rawKey c.rawValue) w
    rw [M.bind_def]
    cases e1 : logAdd E (.handlerEntry c.handlerName c.rawKey c.rawValue) w with
    | mk r1 w1 =>
      rw [e1] at a1
      obtain ⟨b1, b2, b3⟩ := a1
      dsimp only at b1 b2 b3
      subst b3
      dsimp only
      rw [M.bind_def]
      have a2 := hb w1
      cases e2 : runHandlerBody h c w1 with
      | mk r2 w2 =>
        rw [e2] at a2
        dsimp only at a2
        rw [b1, b2] at a2
        cases r2 with
        | exc e => exact a2
        | diverge => exact a2
        | ok r =>
          dsimp only
          rw [M.bind_def]
          have a3 := hl (.handlerExit c.handlerName c.rawKey c.rawValue) w2
          cases e3 : logAdd E (.handlerExit c.handlerName c.rawKey c.rawValue) w2 with
          | mk r3 w3 =>
            rw [e3] at a3
            obtain ⟨d1, d2, d3⟩ := a3
            dsimp only at d1 d2 d3
            subst d3
            dsimp only
            have a4 := hr r w3
            rw [d1, d2, a2.1, a2.2] at a4
            exact a4
  · rw [M.bind_def]
    have a2 := hb w
    cases e2 : runHandlerBody h c w with
    | mk r2 w2 =>
      rw [e2] at a2
      cases r2 <;> exact a2

theorem untouched_touchParse (E : Env δ ω) {t : Str} (h : t ≠ s) (i : Bool) (o : Obj δ ω) (ho : Untouched s o) :
    Untouched s (touchParse E t i o).2 := by
  by_cases ht : t = []
  · subst ht; exact ho
  · cases i with
    | true =>
      rw [touchParse_init E ht]
      have hf := callHandler_frame E E.hookInit
        { sectionName := t, sectionRoot := t, handlerName := py!"handler_initialize" }
        { toCore := startCore E t o.toCore, processed := [], log := [] }
      generalize callHandler E E.hookInit _ _ = x at hf
      obtain ⟨r, w⟩ := x
      have hh : Untouched s ({ toWorld := w, lastResult := o.lastResult } : Obj δ ω) := by
        unfold Untouched
        dsimp only at hf ⊢
        rw [hf.1, hf.2]
        exact ⟨notin_setAdd h ho.1, ho.2⟩
      cases r <;> exact hh
    | false =>
      unfold touchParse
      simp only [M.modify_bind, if_neg ht, Bool.false_eq_true, if_false]
      rw [M.bind_def, liftW_apply]
      unfold logAdd M.modify
      dsimp only
      split <;> exact ⟨notin_setAdd h ho.1, ho.2⟩

theorem untouched_touchOwner (E : Env δ ω) {t : Str} (h : t ≠ s) (o : Obj δ ω) (ho : Untouched s o) :
    Untouched s (touchOwner E t o).2 := by
  rw [touchOwner_apply]
  split
  · exact ho
  · exact untouched_touchParse E h true _ ⟨notin_setAdd h ho.1, ho.2⟩

theorem untouched_touch (E : Env δ ω) (op : EdOp) (h : op.mayParse s = false) (o : Obj δ ω) (ho : Untouched s o) :
    Untouched s (op.touch E o).2 := by
  have ne : ∀ {t : Str}, (t == s) = false → t ≠ s := by intro t ht; simpa using ht
  have own : ∀ {t : Str}, t ≠ s → Untouched s ((do let _ ← touchOwner E t; pure true : M (Obj δ ω) Bool) o).2 := by
    intro t ht
    have := untouched_touchOwner E ht o ho
    rw [M.bind_def]
    generalize touchOwner E t o = x at this
    obtain ⟨r, o'⟩ := x
    cases r <;> exact this
  cases op with
  | parseSection t i fin => exact untouched_touchParse E (ne h) i o ho
  | hasOption t k => exact untouched_touchOwner E (ne h) o ho
  | get t => exact own (ne h)
  | getOption t k => exact own (ne h)
  | assertSection t b => exact own (ne h)
  | sections a => cases a <;> exact ho
  | parseAll | keys | len | hasSection | hasSectionNoParse | options | getItem | itemsAll | items | assertFile | addSection
  | set => exact ho

theorem untouched_configdata (fs : FS) (f : Full δ ω) : (f.configdata fs).2.obj = f.obj := by
  unfold Full.configdata
  cases f.cfg <;> rfl

/-- C23: any history from a new object, over any changes on disk, failures included, leaves a section untouched as long
as no operation asks about it or edits it. -/
theorem C23_untouched (w : ω) (hist : List (FS × FOp)) (ha : ∀ x ∈ hist, Avoids s x.2) :
    Untouched s (FOp.run K n hist (Full.new K w)).2.obj := by
  have key : ∀ (hist : List (FS × FOp)) (f : Full δ ω), (∀ x ∈ hist, Avoids s x.2) → Untouched s f.obj →
      Untouched s (FOp.run K n hist f).2.obj := by
    intro hist
    induction hist with
    | nil => intro f _ h; exact h
    | cons x hist ih =>
      intro f ha hu
      obtain ⟨fs, op⟩ := x
      refine ih _ (fun y hy => ha y (List.mem_cons_of_mem _ hy)) ?_
      have hop := ha (fs, op) (List.mem_cons_self ..)
      cases op with
      | files v =>
        cases v with
        | badType => exact hu
        | one p =>
          unfold FOp.exec Full.setFiles Full.assignFiles
          dsimp only
          split <;> exact hu
        | many ps =>
          unfold FOp.exec Full.setFiles Full.assignFiles
          dsimp only
          split <;> exact hu
      | delims v =>
        cases v with
        | none => exact hu
        | some ds => exact ⟨by simp [FOp.exec, Full.setDelims], .inl rfl⟩
      | level i => exact hu
      | configdata =>
        change Untouched s (f.configdata fs).2.obj
        rw [untouched_configdata]; exact hu
      | lastResult => exact hu
      | unroll sec sp b =>
        have hb : b = true := hop
        subst hb
        unfold FOp.exec Full.unroll
        simp only [if_true]
        cases f.files <;> exact hu
      | ed op =>
        obtain ⟨h1, h2⟩ := hop
        change Untouched s (f.runOp K n fs op).2.obj
        have hx := fun E => untouched_exec E n op h1 h2 f.obj hu
        have ht := untouched_touch (f.env K emptyCfg) op h1 f.obj hu
        unfold Full.runOp
        cases hc : f.cfg with
        | some c => exact hx _
        | none =>
          dsimp only
          cases e : op.touch (f.env K emptyCfg) f.obj with
          | mk r o =>
            rw [e] at ht
            cases r with
            | exc e => exact ht
            | diverge => exact ht
            | ok b =>
              cases b with
              | false => exact hx _
              | true =>
                dsimp only
                have hd := untouched_configdata fs f
                cases e2 : f.configdata fs with
                | mk r2 f2 =>
                  rw [e2] at hd
                  cases r2 with
                  | ok c => exact hx _
                  | exc e => exact ht
                  | diverge => dsimp only at hd ⊢; rw [hd]; exact hu
  exact key hist _ ha ⟨by simp [Full.new, Obj.fresh], .inl rfl⟩

/-! ### C24 changing the delimiters -/

/-- A new object of the same class, with the same subclass attributes, files and exception level, and the given
delimiters. (`out` is what has been printed so far: it is not part of the object.) -/
def brandNew (K : Env δ ω) (f : Full δ ω) (ds : List Str) : Full δ ω where
  files := f.files
  delims := some ds
  level := f.level
  obj := { Obj.fresh K f.obj.self with out := f.obj.out }

/-- C24: after an assignment to `configparser_delimiters` nothing that the object does, in any later history and over
any changes on disk, differs from what a new object with these settings would do; and it prints the same. -/
theorem C24_delimiters_reset (f : Full δ ω) (fs : FS) (ds : List Str) (later : List (FS × FOp)) :
    (FOp.run K n ((fs, .delims (some ds)) :: later) f).1 = .ok .unit :: (FOp.run K n later (brandNew K f ds)).1 ∧
    (FOp.run K n ((fs, .delims (some ds)) :: later) f).2.obj.out = (FOp.run K n later (brandNew K f ds)).2.obj.out ∧
    (FOp.run K n ((fs, .delims (some ds)) :: later) f).2.obj.data = (FOp.run K n later (brandNew K f ds)).2.obj.data ∧
    (FOp.run K n ((fs, .delims (some ds)) :: later) f).2.obj.log = (FOp.run K n later (brandNew K f ds)).2.obj.log ∧
    (FOp.run K n ((fs, .delims (some ds)) :: later) f).2.obj.self = (FOp.run K n later (brandNew K f ds)).2.obj.self := by
  have h : FTwins (f.setDelims (some ds)).2 (brandNew K f ds) :=
    ⟨rfl, rfl, rfl, rfl, rfl, rfl, rfl, rfl, rfl, rfl⟩
  obtain ⟨h1, h2⟩ := FTwins.run K n later h
  refine ⟨?_, h2.obj.out.symm, h2.obj.data.symm, h2.obj.log.symm, h2.obj.self.symm⟩
  rw [h1]; rfl

/-- C24: `brandNew` is what assigning files, delimiters and level to a new object makes, apart from what was printed. -/
theorem C24_brand_new {f : Full δ ω} (hl : f.level ≤ 5) {ps : List Str} (hf : f.files = some ps) (fs : FS) (ds : List Str) :
    (FOp.run K n [(fs, .files (.many (ps.map some))), (fs, .delims (some ds)), (fs, .level f.level)]
      (Full.new K f.obj.self)).2 = { brandNew K f ds with obj := Obj.fresh K f.obj.self } := by
  have hpre : ∀ l : List Str, (pathPrefix (l.map some)).1 = l := by
    intro l
    induction l with
    | nil => rfl
    | cons a l ih => simp only [List.map_cons, pathPrefix]; rw [ih]
  have hlev : (min 5 (max 0 (f.level : Int))).toNat = f.level := by omega
  simp only [FOp.run, FOp.exec, Full.setFiles, Full.assignFiles, Full.setDelims, Full.setLevel, Full.new, brandNew, hf, hpre, hlev]
  rfl

/-- C24: a value that is not a tuple, list or str is refused without any change. -/
theorem C24_bad_value (fs : FS) : (FOp.delims none).exec K n fs f = (.exc .typeError, f) := rfl

open LifeExample in
/-- With `:` no longer a delimiter, the parsed section is forgotten and its options are read differently. -/
example : (FOp.run cls 9 [(disk, .delims (some [['=']])), (disk, .ed (.get py!"A"))] fA1).1 =
    [.ok .unit, .ok (.ed (.opts [(py!"key: 1", none)]))] := by rfl

/-! ### C25 failed loads -/

/-- C25: without any file, or with an empty list, the first access raises ValueError and every later one gives an empty
configuration, whatever is on disk. -/
theorem C25_no_files (hc : f.cfg = none) (hf : f.files = none ∨ f.files = some []) (fs fs' : FS) :
    (FOp.configdata.exec K n fs f).1 = .exc .valueError ∧
    (FOp.configdata.exec K n fs' (FOp.configdata.exec K n fs f).2).1 =
      .ok (.cfg { sections := [], common := [], commonName := py!"CONFIGPARSERENHANCED_COMMON" }) := by
  rcases hf with hf | hf <;> simp only [FOp.exec, Full.configdata, hc, hf, loadFiles] <;> exact ⟨rfl, rfl⟩

/-- C25: if some file does not exist (or is a directory) the first access raises IOError, and every later one gives an
empty configuration, even if the file has appeared meanwhile. -/
theorem C25_missing_file (hc : f.cfg = none) {ps : List Str} (hf : f.files = some ps) {p : Str} (hp : p ∈ ps) {fs : FS}
    (habs : fs p = .absent ∨ fs p = .dir) (fs' : FS) :
    (FOp.configdata.exec K n fs f).1 = .exc .ioError ∧
    (FOp.configdata.exec K n fs' (FOp.configdata.exec K n fs f).2).1 =
      .ok (.cfg { sections := [], common := [], commonName := py!"CONFIGPARSERENHANCED_COMMON" }) := by
  have hall : ps.all (fun p => (fs p).isFile) = false := by
    rw [List.all_eq_false]
    refine ⟨p, hp, ?_⟩
    rcases habs with h | h <;> simp [h, FNode.isFile]
  have hl : loadFiles fs (some ps) f.delimiters = (.error .ioError, some emptyCfg) := by
    cases ps with
    | nil => cases hp
    | cons q qs => simp only [loadFiles, hall, if_true]
  simp only [FOp.exec, Full.configdata, hc, hf, hl]
  exact ⟨rfl, rfl⟩

/-- C25: if an option is repeated, every access raises DuplicateOptionError again as long as the files stay as they
are, and reads them again when they change. -/
theorem C25_duplicate_option {fs : FS} (h : (f.configdata fs).1 = .exc .duplicateOption) :
    (FOp.configdata.exec K n fs f) = (.exc .duplicateOption, f) := by
  have hc : f.cfg = none := by
    cases hx : f.cfg with
    | none => rfl
    | some c => unfold Full.configdata at h; rw [hx] at h; cases h
  have h2 : (loadFiles fs f.files f.delimiters).2 = none ∧
      (loadFiles fs f.files f.delimiters).1 = .error .duplicateOption := by
    simp only [Full.configdata, hc] at h
    cases hl : (loadFiles fs f.files f.delimiters).1 with
    | ok c => rw [hl] at h; cases h
    | error e =>
      rw [hl] at h
      cases h
      refine ⟨?_, rfl⟩
      unfold loadFiles at hl ⊢
      split at hl
      · cases hl
      · cases hl
      · split at hl
        · cases hl
        · rename_i hne hx
          rw [if_neg hx]
          split at hl
          · cases hl
          · rename_i e r hr
            split
            · rfl
            · rename_i hnd
              rw [if_neg hnd] at hl
              cases hl
              exact absurd rfl hnd
  have e1 : (FOp.configdata.exec K n fs f).1 = .exc .duplicateOption := congrArg (Out.map' FVal.cfg) h
  have e2 : (FOp.configdata.exec K n fs f).2 = f := by
    simp only [FOp.exec, Full.configdata, hc, h2.1]
    cases f
    cases hc
    rfl
  exact Prod.ext e1 e2

/-- C25: any other error while reading leaves what had been read so far: later accesses do not raise and give that. -/
theorem C25_partial_read (hc : f.cfg = none) {ps : List Str} (hf : f.files = some ps) (hne : ps ≠ []) {fs : FS}
    (hall : ∀ p ∈ ps, fs p = .unreadable ∨ ∃ t, fs p = .file t) {e : PyExc} (he : e ≠ .duplicateOption) {r : Reader}
    (hr : readFiles fs f.delimiters ps {} = (some e, r)) (fs' : FS) :
    (FOp.configdata.exec K n fs f).1 = .exc e ∧
    (FOp.configdata.exec K n fs' (FOp.configdata.exec K n fs f).2).1 = .ok (.cfg (r.cfg commonSectionName)) := by
  have hall' : ps.all (fun p => (fs p).isFile) = true := by
    rw [List.all_eq_true]
    intro p hp
    rcases hall p hp with h | ⟨t, h⟩ <;> simp [h, FNode.isFile]
  have hl : loadFiles fs (some ps) f.delimiters = (.error e, some (r.cfg commonSectionName)) := by
    cases ps with
    | nil => exact absurd rfl hne
    | cons q qs =>
      have : ¬ (e = .duplicateOption) := he
      simp only [loadFiles, hall', hr, Bool.true_eq_false, if_false, if_neg this]
  simp only [FOp.exec, Full.configdata, hc, hf, hl]
  exact ⟨rfl, rfl⟩

/-- C25: a first assignment of `inifilepath` does not undo a failed load: the object goes on with the empty
configuration. -/
theorem C25_first_assignment_too_late (hc : f.cfg = none) (hf : f.files = none) (fs fs' : FS) (v : PathArg) :
    (FOp.configdata.exec K n fs' ((FOp.files v).exec K n fs (FOp.configdata.exec K n fs f).2).2).1 =
      .ok (.cfg { sections := [], common := [], commonName := py!"CONFIGPARSERENHANCED_COMMON" }) := by
  cases v <;> simp only [FOp.exec, Full.configdata, Full.setFiles, Full.assignFiles, hc, hf, loadFiles, Option.isSome_none,
    Bool.false_eq_true, if_false] <;> rfl

/-- The hook returns 0 and raises nothing. -/
def Returns0 (h : Handler δ ω) : Prop := ∀ p d o, ∃ d' o', h.run p d o = (.ok (.int 0), d', o')

theorem callHandler_returns0 {h : Handler δ ω} (hh : Returns0 h) (E : Env δ ω) (p : HCall) (w : World δ ω) :
    ∃ w', callHandler E h p w = (.ok (), w') := by
  have hb : ∀ w, ∃ w', runHandlerBody h p w = (.ok (.int 0), w') := by
    intro w
    obtain ⟨d', o', e⟩ := hh p w.shared w.self
    unfold runHandlerBody
    rw [e]
    exact ⟨_, rfl⟩
  unfold callHandler
  split
  · unfold operationHandler
    unfold logAdd
    rw [M.modify_bind]
    obtain ⟨w', e⟩ := hb (if E.debug > 0 then { w with log := w.log ++ [.handlerEntry p.handlerName p.rawKey p.rawValue] } else w)
    rw [M.bind_ok e, M.modify_bind]
    exact ⟨_, rfl⟩
  · obtain ⟨w', e⟩ := hb w
    rw [M.bind_ok e]
    exact ⟨_, rfl⟩

/-- Parsing a missing section of an empty configuration. -/
theorem parse_empty (hh : Returns0 K.hookInit) {E : Env δ ω} (hE : E.cfg = emptyCfg) (hk : E.hookInit = K.hookInit)
    (hs : s ≠ []) (hcm : s ≠ py!"CONFIGPARSERENHANCED_COMMON") (i fin : Bool) (o : Obj δ ω) :
    (parseSection E (n + 1) s i fin o).1 = .exc .keyError := by
  have hd : ∀ t, E.cfg.hasSection t = false := by
    intro t
    rw [hE]
    unfold Cfg.hasSection
    simp [emptyCfg, Dict.mem, Dict.get?]
  have ho : E.cfg.optionNames s = none := by
    rw [hE]
    unfold Cfg.optionNames
    rw [if_neg (show s ≠ emptyCfg.commonName from hcm)]
    rfl
  have main : ∀ rec root w, (parseMain E rec root s fin w).1 = .exc .keyError := by
    intro rec root w
    unfold parseMain logAdd
    rw [M.modify_bind, ho]
    rfl
  rw [parseSection_apply E (n + 1) hs]
  unfold parseR
  cases i with
  | false =>
    simp only [Bool.false_and, Bool.false_eq_true, if_false]
    have h := main (fun t => parseR E n s t true false) s { toCore := startCore E s o.toCore, processed := [], log := [] }
    generalize parseMain E _ s s fin _ = x at h ⊢
    obtain ⟨r, w⟩ := x
    cases h
    rfl
  | true =>
    simp only [decide_true, Bool.and_true, if_true]
    obtain ⟨w', e⟩ := callHandler_returns0 (hk ▸ hh) E
        { sectionName := s, sectionRoot := s, handlerName := py!"handler_initialize" }
        { toCore := startCore E s o.toCore, processed := [], log := [] }
    rw [M.bind_ok e, hd]
    simp only [Bool.false_eq_true, if_false]
    have h := main (fun t => parseR E n s t true false) s w'
    generalize hx : parseMain E _ s s fin w' = x at h
    obtain ⟨r, w⟩ := x
    cases h
    rfl

/-- C25: as long as no file was ever assigned, asking for a section raises ValueError every time it is parsed; a section
that was asked for before is missing (KeyError), as it is for `[]`. -/
theorem C25_never_assigned (hc : f.cfg = some emptyCfg) (hf : f.files = none) (hh : Returns0 K.hookInit)
    (hs : s ≠ []) (hcm : s ≠ py!"CONFIGPARSERENHANCED_COMMON") (fs : FS) :
    (∀ i fin, ((FOp.ed (.parseSection s i fin)).exec K (n + 1) fs f).1 = .exc .valueError) ∧
    (s ∉ f.obj.checked → ∀ op, op = .get s ∨ (∃ k, op = .getOption s k ∨ op = .hasOption s k) ∨ (∃ b, op = .assertSection s b) →
      ((FOp.ed op).exec K (n + 1) fs f).1 = .exc .valueError) ∧
    (s ∈ f.obj.checked → Dict.get? f.obj.data s = none →
      ((FOp.ed (.get s)).exec K (n + 1) fs f).1 = .exc .keyError) ∧
    (Dict.get? f.obj.data s = none → ((FOp.ed (.getItem s)).exec K (n + 1) fs f).1 = .exc .keyError) := by
  have hrun : ∀ op, (f.runOp K (n + 1) fs op).1 =
      f.missing K op emptyCfg (op.exec (f.env K emptyCfg) (n + 1) f.obj).1 := by
    intro op; unfold Full.runOp; rw [hc]
  have ho : emptyCfg.optionNames s = none := by
    unfold Cfg.optionNames
    rw [if_neg (show s ≠ emptyCfg.commonName from hcm)]
    rfl
  have hE := parse_empty (K := K) (n := n) (s := s) hh (E := f.env K emptyCfg) rfl rfl hs hcm
  have htp : ∀ i o, (touchParse (f.env K emptyCfg) s i o).1 = .ok true := by
    intro i o
    cases i with
    | false => obtain ⟨o', e⟩ := touchParse_noInit (f.env K emptyCfg) hs o; rw [e]
    | true =>
      rw [touchParse_init _ hs]
      obtain ⟨w', e⟩ := callHandler_returns0 (h := (f.env K emptyCfg).hookInit) hh (f.env K emptyCfg)
        { sectionName := s, sectionRoot := s, handlerName := py!"handler_initialize" }
        { toCore := startCore (f.env K emptyCfg) s o.toCore, processed := [], log := [] }
      rw [e]
  have key : ∀ op, op.parses f.obj = some s → (op.touch (f.env K emptyCfg) f.obj).1 = .ok true →
      (op.exec (f.env K emptyCfg) (n + 1) f.obj).1 = .exc .keyError → (f.runOp K (n + 1) fs op).1 = .exc .valueError := by
    intro op h1 h2 h3
    rw [hrun op, h3]
    unfold Full.missing
    rw [hf, h1]
    exact if_pos ⟨ho, h2⟩
  refine ⟨fun i fin => ?_, fun hn op hop => ?_, fun hk hd => ?_, fun hd => ?_⟩
  · show Out.map' _ (f.runOp K (n + 1) fs _).1 = _
    rw [key (.parseSection s i fin) rfl (htp i f.obj)]
    · rfl
    · show ((parseSection _ _ s i fin >>= fun r => pure (EdVal.shared r)) f.obj).1 = _
      have h := hE i fin f.obj
      rw [M.bind_def]
      generalize parseSection _ _ s i fin f.obj = x at h ⊢
      obtain ⟨r, w⟩ := x
      cases h
      rfl
  · show Out.map' _ (f.runOp K (n + 1) fs _).1 = _
    have hpo : (parseOwner (f.env K emptyCfg) (n + 1) s false f.obj).1 = .exc .keyError := by
      rw [parseOwner_apply, if_pos (.inl hn)]
      have h := hE true true { f.obj with checked := setAdd f.obj.checked s }
      generalize parseSection _ _ s true true _ = x at h ⊢
      obtain ⟨r, w⟩ := x
      cases h
      rfl
    have hto : (touchOwner (f.env K emptyCfg) s f.obj).1 = .ok true := by
      rw [touchOwner_apply, if_neg hn]
      exact htp _ _
    have hex : ∀ {α β : Type} {m : M (Obj δ ω) α} (k : α → M (Obj δ ω) β), (m f.obj).1 = .exc .keyError →
        ((m >>= k) f.obj).1 = .exc .keyError := by
      intro α β m k h
      rw [M.bind_def]
      generalize m f.obj = x at h ⊢
      obtain ⟨r, w⟩ := x
      cases h
      rfl
    have htb : ((do let _ ← touchOwner (f.env K emptyCfg) s; pure true : M (Obj δ ω) Bool) f.obj).1 = .ok true := by
      rw [M.bind_def]
      generalize touchOwner _ s f.obj = x at hto ⊢
      obtain ⟨r, w⟩ := x
      cases hto
      rfl
    have hget : (edGet (f.env K emptyCfg) (n + 1) s f.obj).1 = .exc .keyError := by
      rw [edGet_apply]
      generalize parseOwner _ _ s false f.obj = x at hpo ⊢
      obtain ⟨r, w⟩ := x
      cases hpo
      rfl
    rcases hop with rfl | ⟨k, rfl | rfl⟩ | ⟨b, rfl⟩
    · rw [key (.get s) (if_pos hn) htb (hex _ hget)]; rfl
    · have hg : (edGetOption (f.env K emptyCfg) (n + 1) s k f.obj).1 = .exc .keyError := by
        rw [edGetOption_apply]
        generalize parseOwner _ _ s false f.obj = x at hpo ⊢
        obtain ⟨r, w⟩ := x
        cases hpo
        rfl
      rw [key (.getOption s k) (if_pos hn) htb (hex _ hg)]; rfl
    · have hg : (edHasOption (f.env K emptyCfg) (n + 1) s k f.obj).1 = .exc .keyError := by
        rw [edHasOption_apply]
        generalize parseOwner _ _ s false f.obj = x at hpo ⊢
        obtain ⟨r, w⟩ := x
        cases hpo
        rfl
      rw [key (.hasOption s k) (if_pos hn) hto (hex _ hg)]; rfl
    · rw [key (.assertSection s b) (if_pos hn) htb (hex _ (hex _ hget))]; rfl
  · show Out.map' _ (f.runOp K (n + 1) fs _).1 = _
    rw [hrun, missing_parses K emptyCfg (show (EdOp.get s).parses f.obj = none from if_neg (fun h => h hk)),
      access_checked hk (.get s) rfl, hd]
    rfl
  · show Out.map' _ (f.runOp K (n + 1) fs _).1 = _
    rw [hrun, missing_parses K emptyCfg (show (EdOp.getItem s).parses f.obj = none from rfl)]
    show Out.map' _ ((edGetItem (f.env K emptyCfg) (n + 1) s >>= fun r => pure (EdVal.opts r)) f.obj).1 = _
    have : edGetItem (f.env K emptyCfg) (n + 1) s f.obj = (.exc .keyError, f.obj) := by
      have hb : edHasSection (f.env K emptyCfg) (n + 1) s f.obj = (.ok false, f.obj) := by
        unfold edHasSection
        rw [if_neg (show ¬ (f.env K emptyCfg).cfg.hasSection s = true by
          simp [Full.env, Cfg.hasSection, emptyCfg, Dict.mem, Dict.get?])]
        unfold hasSectionNoParse
        rw [M.read_bind]
        show (Out.ok (Dict.mem f.obj.data s), f.obj) = _
        rw [Dict.mem, hd]
        rfl
      unfold edGetItem
      rw [M.bind_ok hb]
      rfl
    rw [M.bind_exc this]
    rfl

/-- The hypotheses of C25_never_assigned are met after the first access. -/
example : (FOp.run baseClass 9 [(LifeExample.disk, .configdata), (LifeExample.disk, .ed (.get py!"A")),
      (LifeExample.disk, .ed (.get py!"A")), (LifeExample.disk, .ed (.parseSection py!"A" true true)),
      (LifeExample.disk, .ed (.getItem py!"A"))] (Full.new baseClass ())).1 =
      [.exc .valueError, .exc .valueError, .exc .keyError, .exc .valueError, .exc .keyError] ∧
    (FOp.configdata.exec baseClass 9 LifeExample.disk (Full.new baseClass ())).2.cfg = some emptyCfg ∧
    Returns0 baseClass.hookInit :=
  ⟨rfl, rfl, fun _ d o => ⟨d, o, rfl⟩⟩

open LifeExample in
example : (FOp.run cls 9 [(disk, .ed (.sections .no)), (disk, .ed (.sections .no))] (Full.new cls ())).1 =
    [.exc .valueError, .ok (.ed (.names []))] := by rfl

open LifeExample in
example : (FOp.run cls 9 [(disk, .files (.many [some py!"a.ini", some py!"d"])), (disk, .configdata), (disk, .configdata)]
      (Full.new cls ())).1 = [.ok .unit, .exc .ioError, .ok (.cfg emptyCfg)] := by rfl

open LifeExample in
example : (FOp.run cls 9 [(disk, .files (.one py!"dup.ini")), (disk, .configdata), (disk, .configdata)]
      (Full.new cls ())).1 = [.ok .unit, .exc .duplicateOption, .exc .duplicateOption] := by rfl

open LifeExample in
example : (FOp.run cls 9 [(disk, .files (.one py!"bad.ini")), (disk, .configdata), (disk, .ed (.get py!"A"))]
      (Full.new cls ())).1 = [.ok .unit, .exc .duplicateSection, .ok (.ed (.opts [(py!"key", some py!"1")]))] := by rfl

/-! ### C28 the exception level around unroll_to_str -/

/-- C28: with `use_base_class_parser=False` a successful `unroll_to_str` leaves the level as it was, and one that raises
leaves it at 0. -/
theorem C28_level_after_unroll (fs : FS) (sec : Option Str) (space : Bool) :
    ((FOp.unroll sec space false).exec K n fs f).2.level =
      match ((FOp.unroll sec space false).exec K n fs f).1 with
      | .ok _ => f.level
      | _ => 0 := by
  have hlev : ∀ g : Full δ ω, (g.configdata fs).2.level = g.level := by
    intro g; unfold Full.configdata; cases g.cfg <;> rfl
  have h0 := hlev { f with level := 0 }
  simp only [FOp.exec, Full.unroll, Bool.false_eq_true, if_false, Full.unrollSelf]
  cases hd : Full.configdata fs { f with level := 0 } with
  | mk r f1 =>
    rw [hd] at h0
    cases r with
    | exc e => exact h0
    | diverge => exact h0
    | ok c =>
      dsimp only
      generalize unrollBody (f1.env K c) n sec space f1.obj = x
      obtain ⟨r, o⟩ := x
      cases r with
      | ok t => rfl
      | exc e => exact h0
      | diverge => exact h0

/-- C28: during the work the level is 0: no notice is printed and no SERIOUS event raises. -/
theorem C28_quiet (E : Env δ ω) (h0 : E.level = 0) (ev : Event) (e : PyExc) (w : World δ ω) (hev : ev ≠ .catastrophic) :
    ecEvent E ev e w = (.ok (), w) := by
  unfold ecEvent fireEvent
  rw [h0]
  cases ev <;> simp_all [Event.levelReq]

/-- C28: with `use_base_class_parser=True` the object is not changed at all. -/
theorem C28_base_class_unroll (fs : FS) (sec : Option Str) (space : Bool) :
    ((FOp.unroll sec space true).exec K n fs f).2 = f := by
  simp only [FOp.exec, Full.unroll, if_true]
  cases f.files <;> rfl

open LifeExample in
example : ((FOp.unroll none true false).exec cls 9 disk fA).1 =
    .ok (.text py!"[A]\nkey : 1\n\n[B]\nkey : 1\nmine :\n") ∧
    ((FOp.unroll (some py!"Z") true false).exec cls 9 disk fA).1 = .exc .keyError ∧
    ((FOp.unroll (some py!"Z") true false).exec cls 9 disk fA).2.level = 0 := by
  decide +kernel

/-- The level after an operation with the given outcome: an assignment sets it, limited to 0..5; a failed `unroll_to_str` with
`use_base_class_parser=False` leaves 0; nothing else changes it. -/
def levelNext (l : Int) (op : FOp) (r : Out (FVal δ)) : Int :=
  match op, r with
  | .level i, _ => if i < 0 then 0 else if 5 < i then 5 else i
  | .unroll _ _ false, .exc _ => 0
  | .unroll _ _ false, .diverge => 0
  | _, _ => l

/-- C28: one operation. -/
theorem C28_level_step (f : Full δ ω) (fs : FS) (op : FOp) :
    ((op.exec K n fs f).2.level : Int) = levelNext f.level op (op.exec K n fs f).1 := by
  have hlev : ∀ g : Full δ ω, (g.configdata fs).2.level = g.level := by
    intro g; unfold Full.configdata; cases g.cfg <;> rfl
  cases op with
  | files v =>
    have ha : ∀ es, (f.assignFiles es).2.level = f.level := by
      intro es
      unfold Full.assignFiles
      by_cases h : f.files.isSome = true
      · rw [if_pos h]
      · rw [if_neg h]
    show ((f.setFiles v).2.level : Int) = f.level
    cases v with
    | badType => rfl
    | one p => exact congrArg Int.ofNat (ha _)
    | many ps => exact congrArg Int.ofNat (ha _)
  | delims v => cases v <;> rfl
  | level i =>
    show (((min 5 (max 0 i)).toNat : Nat) : Int) = if i < 0 then 0 else if 5 < i then 5 else i
    split
    · omega
    · split <;> omega
  | configdata => exact congrArg Int.ofNat (hlev f)
  | lastResult => rfl
  | ed op =>
    show ((f.runOp K n fs op).2.level : Int) = f.level
    unfold Full.runOp
    cases f.cfg with
    | some c => rfl
    | none =>
      dsimp only
      cases op.touch (f.env K emptyCfg) f.obj with
      | mk r o =>
        cases r with
        | exc e => rfl
        | diverge => rfl
        | ok b =>
          cases b with
          | false => rfl
          | true =>
            dsimp only
            have := hlev f
            cases hx : f.configdata fs with
            | mk r f' =>
              rw [hx] at this
              cases r <;> exact congrArg Int.ofNat this
  | unroll sec space b =>
    cases b with
    | true => rw [C28_base_class_unroll]; rfl
    | false =>
      rw [C28_level_after_unroll]
      cases (FOp.exec K n fs (FOp.unroll sec space false) f).1 <;> rfl

/-- C28: the level after any history, from what the client saw, is the one last assigned, limited to 0..5, unless a later
`unroll_to_str` with `use_base_class_parser=False` failed; so it is always between 0 and 5. -/
theorem C28_level_history (o : ω) (hist : List (FS × FOp)) :
    ((FOp.run K n hist (Full.new K o)).2.level : Int) =
      ((hist.map Prod.snd).zip (FOp.run K n hist (Full.new K o)).1).foldl (fun l x => levelNext l x.1 x.2) 4 ∧
    (FOp.run K n hist (Full.new K o)).2.level ≤ 5 := by
  have key : ∀ (hist : List (FS × FOp)) (f : Full δ ω), ((FOp.run K n hist f).2.level : Int) =
      ((hist.map Prod.snd).zip (FOp.run K n hist f).1).foldl (fun l x => levelNext l x.1 x.2) f.level := by
    intro hist
    induction hist with
    | nil => intro f; rfl
    | cons x hist ih =>
      obtain ⟨fs, op⟩ := x
      intro f
      show ((FOp.run K n hist (op.exec K n fs f).2).2.level : Int) =
        ((hist.map Prod.snd).zip (FOp.run K n hist (op.exec K n fs f).2).1).foldl (fun l x => levelNext l x.1 x.2)
          (levelNext f.level op (op.exec K n fs f).1)
      rw [ih, C28_level_step]
  refine ⟨key hist _, ?_⟩
  have range : ∀ (hist : List (FS × FOp)) (f : Full δ ω), f.level ≤ 5 → (FOp.run K n hist f).2.level ≤ 5 := by
    intro hist
    induction hist with
    | nil => intro f h; exact h
    | cons x hist ih =>
      obtain ⟨fs, op⟩ := x
      intro f h
      apply ih
      have := C28_level_step (K := K) (n := n) f fs op
      have hr : levelNext (f.level : Int) op (op.exec K n fs f).1 ≤ 5 := by
        unfold levelNext
        split
        · split
          · decide
          · split <;> omega
        · decide
        · decide
        · omega
      omega
  exact range hist _ (show 4 ≤ 5 by decide)

open LifeExample in
/-- An assignment out of range, a failed unroll, an assignment. -/
example : (FOp.run cls 9 [(disk, .level 9)] fA).2.level = 5 ∧
    (FOp.run cls 9 [(disk, .level 9), (disk, .unroll (some py!"Z") true false)] fA).2.level = 0 ∧
    (FOp.run cls 9 [(disk, .unroll (some py!"Z") true false), (disk, .level 3), (disk, .ed (.get py!"A"))] fA).2.level = 3 := by
  decide +kernel

end CPE.Props
