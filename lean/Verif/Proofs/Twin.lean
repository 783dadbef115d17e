import Verif.Proofs.Two
import Verif.Model.Object
/-
Two objects that differ only in what the next parse overwrites behave alike.
-/
namespace CPE
open Spec
variable {δ ω : Type}

/-- Equal but for `data_shared` and `processed_sections`, which belong to a parse and not to the object. -/
structure Twins (o o' : Obj δ ω) : Prop where
  data : o'.data = o.data
  checked : o'.checked = o.checked
  self : o'.self = o.self
  out : o'.out = o.out
  log : o'.log = o.log
  last : o'.lastResult = o.lastResult

theorem Twins.refl (o : Obj δ ω) : Twins o o := ⟨rfl, rfl, rfl, rfl, rfl, rfl⟩

variable {strict : Bool}

theorem Twin.reset (K : Env δ ω) (s : Str) {o o' : Obj δ ω} (h : Twins o o') :
    { o' with processed := [], shared := K.emptyShared, log := [], checked := setAdd o'.checked s } =
      ({ o with processed := [], shared := K.emptyShared, log := [], checked := setAdd o.checked s } : Obj δ ω) := by
  obtain ⟨h1, h2, h3, h4, h5, h6⟩ := h
  cases o with | mk w l => cases w with | mk c p g => cases c with | mk d ck sh se ou =>
  cases o' with | mk w l => cases w with | mk c p g => cases c with | mk d ck sh se ou =>
  cases h1; cases h2; cases h3; cases h4; cases h5; cases h6
  rfl

theorem Twin.parseSection (E : Env δ ω) (n : Nat) (s : Str) (i f : Bool) :
    Two false (Twins (δ := δ) (ω := ω)) (parseSection E n s i f) (parseSection E n s i f) := by
  intro o o' h _
  by_cases hs : s = []
  · subst hs
    rw [parseSection_nil, parseSection_nil]
    exact ⟨rfl, h.1, h.2, h.3, h.4, rfl, h.6⟩
  · have : CPE.parseSection E n s i f o' = CPE.parseSection E n s i f o := by
      have e : ∀ o : Obj δ ω, CPE.parseSection E n s i f o = CPE.parseSection E n s i f
          { o with processed := [], shared := E.emptyShared, log := [], checked := setAdd o.checked s } := by
        intro o
        rw [parseSection_apply E n hs, parseSection_apply E n hs]
        simp only [startCore]
        have hset : setAdd (setAdd o.checked s) s = setAdd o.checked s := by
          unfold setAdd; split <;> simp_all
        simp only [hset]
      rw [e o', e o, Twin.reset E s h]
    rw [this]
    exact ⟨rfl, Twins.refl _⟩

section
variable (E : Env δ ω)

theorem Twin.parseOwner (n : Nat) (s : Str) (force : Bool) :
    Two false (Twins (δ := δ) (ω := ω)) (parseOwner E n s force) (parseOwner E n s force) := by
  unfold CPE.parseOwner
  refine Two.readBind fun w w' hw => ?_
  rw [hw.checked]
  split
  · refine (Two.modify' fun w w' h => ?_).bind fun _ => (Twin.parseSection E n s true true).bind fun _ => .pure' _
    obtain ⟨h1, h2, h3, h4, h5, h6⟩ := h
    exact ⟨h1, by simp [h2], h3, h4, h5, h6⟩
  · exact .pure' _

theorem Twin.hasSectionNoParse (s : Str) :
    Two false (Twins (δ := δ) (ω := ω)) (hasSectionNoParse s) (hasSectionNoParse s) := by
  unfold CPE.hasSectionNoParse
  refine Two.readBind fun w w' hw => ?_
  rw [hw.data]; exact .pure' _

theorem Twin.edHasSection (n : Nat) (s : Str) :
    Two false (Twins (δ := δ) (ω := ω)) (edHasSection E n s) (edHasSection E n s) := by
  unfold CPE.edHasSection
  split
  · refine Two.readBind fun w w' hw => ?_
    rw [hw.checked]
    split
    · exact (Twin.parseOwner E n s false).bind fun _ => Twin.hasSectionNoParse s
    · exact Twin.hasSectionNoParse s
  · exact Twin.hasSectionNoParse s

theorem Twin.edData (s : Str) : Two false (Twins (δ := δ) (ω := ω)) (edData s) (edData s) := by
  unfold CPE.edData
  refine Two.readBind fun w w' hw => ?_
  rw [hw.data]
  cases Dict.get? w.data s with
  | none => exact .raise' _
  | some d => exact .pure' _

theorem Twin.edOptions (n : Nat) (s : Str) :
    Two false (Twins (δ := δ) (ω := ω)) (edOptions E n s) (edOptions E n s) := by
  refine (Twin.edHasSection E n s).bind fun b => ?_
  split
  · exact Twin.edData s
  · exact .raise' _

theorem Twin.edHasOption (n : Nat) (s k : Str) :
    Two false (Twins (δ := δ) (ω := ω)) (edHasOption E n s k) (edHasOption E n s k) := by
  refine (Twin.parseOwner E n s false).bind fun _ => Two.readBind fun w w' hw => ?_
  rw [hw.data]; exact .pure' _

theorem Twin.edGet (n : Nat) (s : Str) :
    Two false (Twins (δ := δ) (ω := ω)) (edGet E n s) (edGet E n s) := by
  refine (Twin.parseOwner E n s false).bind fun _ => (Twin.edHasSection E n s).bind fun b => ?_
  split
  · exact Twin.edData s
  · exact .raise' _

theorem Twin.edGetOption (n : Nat) (s k : Str) :
    Two false (Twins (δ := δ) (ω := ω)) (edGetOption E n s k) (edGetOption E n s k) := by
  refine (Twin.parseOwner E n s false).bind fun _ => (Twin.edHasSection E n s).bind fun b => ?_
  split
  · refine (Twin.edHasOption E n s k).bind fun h => ?_
    split
    · refine (Twin.edData s).bind fun d => ?_
      cases Dict.get? d k with
      | none => exact .raise' _
      | some v => exact .pure' _
    · exact .raise' _
  · exact .raise' _

theorem Twin.event (ev : Event) (e : PyExc) :
    Two false (Twins (δ := δ) (ω := ω)) (liftW (ecEvent E ev e)) (liftW (ecEvent E ev e)) := by
  intro o o' h _
  obtain ⟨h1, h2, h3, h4, h5, h6⟩ := h
  exact ⟨rfl, h1, h2, h3, by simp [liftW, ecEvent, h4], h5, h6⟩

theorem Twin.assertSection (n : Nat) (ops files : List Str) (s : Str) (b : Bool) :
    Two false (Twins (δ := δ) (ω := ω)) (assertSection E n ops files s b) (assertSection E n ops files s b) := by
  refine (Twin.edGet E n s).bind fun d => ?_
  split
  · exact .pure' _
  · dsimp only
    split
    · exact (Twin.event E _ _).bind fun _ => .pure' _
    · exact .pure' _

theorem Twin.assertLoop (n : Nat) (ops files : List Str) (l : List Str) :
    Two false (Twins (δ := δ) (ω := ω)) (assertLoop E n ops files l) (assertLoop E n ops files l) := by
  induction l with
  | nil => exact .pure' _
  | cons t l ih =>
    exact (Twin.assertSection E n ops files t false).bind fun _ => ih.bind fun _ => .pure' _

theorem Twin.assertFile (n : Nat) (ops files : List Str) :
    Two false (Twins (δ := δ) (ω := ω)) (assertFile E n ops files) (assertFile E n ops files) := by
  refine (Twin.assertLoop E n ops files _).bind fun b => ?_
  split
  · exact (Twin.event E _ _).bind fun _ => .pure' _
  · exact .pure' _

theorem Twin.edSections (n : Nat) (a : SectionsArg) :
    Two false (Twins (δ := δ) (ω := ω)) (edSections E n a) (edSections E n a) := by
  unfold CPE.edSections
  cases a with
  | otherType => exact .raise' _
  | otherStr => exact .raise' _
  | no => exact .pure' _
  | yes => exact (Two.forEach _ fun s => Twin.parseOwner E n s false).bind fun _ => .pure' _
  | force => exact (Two.forEach _ fun s => Twin.parseOwner E n s true).bind fun _ => .pure' _

theorem Twin.edAddSection (s : Str) (f : Bool) :
    Two false (Twins (δ := δ) (ω := ω)) (edAddSection s f) (edAddSection s f) := by
  refine Two.modify' fun w w' h => ?_
  obtain ⟨h1, h2, h3, h4, h5, h6⟩ := h
  rw [h1]
  split
  · exact ⟨rfl, h2, h3, h4, h5, h6⟩
  · exact ⟨h1, h2, h3, h4, h5, h6⟩

theorem Twin.edSet (n : Nat) (s k : Str) (v : Option Str) :
    Two false (Twins (δ := δ) (ω := ω)) (edSet E n s k v) (edSet E n s k v) := by
  have hm : Two false (Twins (δ := δ) (ω := ω))
      (M.modify fun o : Obj δ ω => { o with data := Dict.set o.data s (Dict.set ((Dict.get? o.data s).getD []) k v) })
      (M.modify fun o => { o with data := Dict.set o.data s (Dict.set ((Dict.get? o.data s).getD []) k v) }) := by
    refine Two.modify' fun w w' h => ?_
    obtain ⟨h1, h2, h3, h4, h5, h6⟩ := h
    exact ⟨by simp [h1], h2, h3, h4, h5, h6⟩
  refine (Twin.edHasSection E n s).bind fun b => ?_
  split
  · exact (Twin.edAddSection s false).bind fun _ => hm
  · exact hm

/-- Every client operation. -/
theorem Twin.exec (n : Nat) (op : EdOp) :
    Two false (Twins (δ := δ) (ω := ω)) (op.exec E n) (op.exec E n) := by
  cases op <;> unfold EdOp.exec
  · exact (Twin.parseSection E _ _ _ _).bind fun _ => .pure' _
  · exact ((Twin.edSections E _ _).bind fun _ => .pure' _).bind fun _ => .pure' _
  · exact .pure' _
  · exact .pure' _
  · exact (Twin.edSections E _ _).bind fun _ => .pure' _
  · exact (Twin.edHasSection E _ _).bind fun _ => .pure' _
  · exact (Twin.hasSectionNoParse _).bind fun _ => .pure' _
  · exact (Twin.edOptions E _ _).bind fun _ => .pure' _
  · exact (Twin.edOptions E _ _).bind fun _ => .pure' _
  · exact (Twin.edHasOption E _ _ _).bind fun _ => .pure' _
  · exact (Twin.edGet E _ _).bind fun _ => .pure' _
  · exact (Twin.edGetOption E _ _ _).bind fun _ => .pure' _
  · exact ((Two.forEach _ fun s => Twin.parseOwner E n s false).bind fun _ => Two.readBind fun w w' hw => by
      rw [hw.data]; exact .pure' _).bind fun _ => .pure' _
  · exact (Twin.edOptions E _ _).bind fun _ => .pure' _
  · exact (Twin.assertSection E _ _ _ _ _).bind fun _ => .pure' _
  · exact (Twin.assertFile E _ _ _).bind fun _ => .pure' _
  · exact (Twin.edAddSection _ _).bind fun _ => .pure' _
  · exact (Twin.edSet E _ _ _ _).bind fun _ => .pure' _

theorem Twin.touchParse (s : Str) (init : Bool) :
    Two false (Twins (δ := δ) (ω := ω)) (touchParse E s init) (touchParse E s init) := by
  intro o o' h _
  by_cases hs : s = []
  · subst hs
    exact ⟨rfl, h.1, h.2, h.3, h.4, rfl, h.6⟩
  · have e : ∀ o : Obj δ ω, CPE.touchParse E s init o = CPE.touchParse E s init
        { o with processed := [], shared := E.emptyShared, log := [], checked := setAdd o.checked s } := by
      intro o
      unfold CPE.touchParse
      simp only [M.modify_bind, if_neg hs]
      have hset : setAdd (setAdd o.checked s) s = setAdd o.checked s := by
        unfold setAdd; split <;> simp_all
      simp only [hset]
    rw [e o', e o, Twin.reset E s h]
    exact ⟨rfl, Twins.refl _⟩

theorem Twin.touchOwner (s : Str) :
    Two false (Twins (δ := δ) (ω := ω)) (touchOwner E s) (touchOwner E s) := by
  refine Two.readBind fun w w' hw => ?_
  rw [hw.checked]
  split
  · refine (Two.modify' fun w w' h => ?_).bind fun _ => Twin.touchParse E s true
    obtain ⟨h1, h2, h3, h4, h5, h6⟩ := h
    exact ⟨h1, by simp [h2], h3, h4, h5, h6⟩
  · exact .pure' _

theorem Twin.touch (op : EdOp) : Two false (Twins (δ := δ) (ω := ω)) (op.touch E) (op.touch E) := by
  cases op <;> unfold EdOp.touch
  case parseSection s i f => exact Twin.touchParse E s i
  case hasOption s k => exact Twin.touchOwner E s
  case get s => exact (Twin.touchOwner E s).bind fun _ => .pure' _
  case getOption s k => exact (Twin.touchOwner E s).bind fun _ => .pure' _
  case assertSection s b => exact (Twin.touchOwner E s).bind fun _ => .pure' _
  case sections a => cases a <;> exact .pure' _
  all_goals exact .pure' _

theorem Twin.genSection (n : Nat) (delim s : Str) :
    Two false (Twins (δ := δ) (ω := ω)) (genSection E n delim s) (genSection E n delim s) := by
  refine (Twin.edHasSection E n s).bind fun b => ?_
  split
  · exact (Twin.edOptions E n s).bind fun _ => .pure' _
  · exact .raise' _

theorem Twin.genAll (n : Nat) (delim : Str) (l : List Str) :
    Two false (Twins (δ := δ) (ω := ω)) (genAll E n delim l) (genAll E n delim l) := by
  induction l with
  | nil => exact .pure' _
  | cons s l ih => exact (Twin.genSection E n delim s).bind fun _ => ih.bind fun _ => .pure' _

theorem Twin.unrollBody (n : Nat) (sec : Option Str) (space : Bool) :
    Two false (Twins (δ := δ) (ω := ω)) (unrollBody E n sec space) (unrollBody E n sec space) := by
  unfold CPE.unrollBody
  cases sec with
  | none => exact (Twin.genAll E n _ _).bind fun _ => .pure' _
  | some s => exact (Twin.genSection E n _ s).bind fun _ => .pure' _

end

/-- Two whole objects that differ only in what the next parse overwrites. -/
structure FTwins (f f' : Full δ ω) : Prop where
  files : f'.files = f.files
  delims : f'.delims = f.delims
  cfg : f'.cfg = f.cfg
  level : f'.level = f.level
  obj : Twins f.obj f'.obj

theorem FTwins.configdata {f f' : Full δ ω} (h : FTwins f f') (fs : FS) :
    (f'.configdata fs).1 = (f.configdata fs).1 ∧ FTwins (f.configdata fs).2 (f'.configdata fs).2 := by
  obtain ⟨h1, h2, h3, h4, h5⟩ := h
  obtain ⟨fi, de, cf, le, ob⟩ := f
  obtain ⟨fi', de', cf', le', ob'⟩ := f'
  dsimp only at h1 h2 h3 h4 h5
  subst h1 h2 h3 h4
  cases cf' with
  | some c => exact ⟨rfl, rfl, rfl, rfl, rfl, h5⟩
  | none => exact ⟨rfl, rfl, rfl, rfl, rfl, h5⟩

theorem FTwins.env {f f' : Full δ ω} (h : FTwins f f') (K : Env δ ω) (c : Cfg) : f'.env K c = f.env K c := by
  unfold Full.env; rw [h.level]

theorem FTwins.missing {f f' : Full δ ω} (h : FTwins f f') (K : Env δ ω) (op : EdOp) (c : Cfg) (r : Out (EdVal δ)) :
    f'.missing K op c r = f.missing K op c r := by
  have ht := (Twin.touch (f.env K c) op f.obj f'.obj h.obj (by simp)).1
  have hp : op.parses f'.obj = op.parses f.obj := by
    cases op <;> simp only [EdOp.parses, h.obj.checked]
  unfold Full.missing
  rw [h.files, hp, h.env, ht]

theorem FTwins.runOp {f f' : Full δ ω} (h : FTwins f f') (K : Env δ ω) (n : Nat) (fs : FS) (op : EdOp) :
    (f'.runOp K n fs op).1 = (f.runOp K n fs op).1 ∧ FTwins (f.runOp K n fs op).2 (f'.runOp K n fs op).2 := by
  have hx := fun E => Twin.exec E n op f.obj f'.obj h.obj (by simp)
  have ht := fun E => Twin.touch E op f.obj f'.obj h.obj (by simp)
  have hd := h.configdata fs
  have hc' := h.cfg
  cases hc : f.cfg with
  | some c =>
    rw [hc] at hc'
    unfold Full.runOp
    rw [hc, hc']
    simp only [h.env, h.missing]
    exact ⟨congrArg (f.missing K op c) (hx _).1, h.files, h.delims, rfl, h.level, (hx _).2⟩
  | none =>
    rw [hc] at hc'
    unfold Full.runOp
    rw [hc, hc']
    simp only [h.env]
    have h1 := ht (f.env K emptyCfg)
    cases hm : op.touch (f.env K emptyCfg) f.obj with
    | mk r o =>
      cases hm' : op.touch (f.env K emptyCfg) f'.obj with
      | mk r' o' =>
        rw [hm, hm'] at h1
        dsimp only at h1
        obtain ⟨h1, h2⟩ := h1
        subst h1
        cases r' with
        | exc e => exact ⟨rfl, h.files, h.delims, rfl, h.level, h2⟩
        | diverge => exact ⟨rfl, h.files, h.delims, rfl, h.level, h2⟩
        | ok b =>
          cases b with
          | false => exact ⟨(hx _).1, h.files, h.delims, rfl, h.level, (hx _).2⟩
          | true =>
            dsimp only
            cases hl : f.configdata fs with
            | mk r1 f1 =>
              cases hl' : f'.configdata fs with
              | mk r1' f1' =>
                rw [hl, hl'] at hd
                dsimp only at hd
                obtain ⟨h3, h4⟩ := hd
                subst h3
                cases r1' with
                | ok c => exact ⟨(hx _).1, h4.files, h4.delims, h4.cfg, h4.level, (hx _).2⟩
                | exc e => exact ⟨rfl, h4.files, h4.delims, h4.cfg, h4.level, h2⟩
                | diverge => exact ⟨rfl, h4⟩

theorem FTwins.unrollSelf {f f' : Full δ ω} (h : FTwins f f') (K : Env δ ω) (n : Nat) (fs : FS) (sec : Option Str)
    (sp : Bool) : (f'.unrollSelf K n fs sec sp).1 = (f.unrollSelf K n fs sec sp).1 ∧
      FTwins (f.unrollSelf K n fs sec sp).2 (f'.unrollSelf K n fs sec sp).2 := by
  have h0 : FTwins { f with level := 0 } { f' with level := 0 } := ⟨h.files, h.delims, h.cfg, rfl, h.obj⟩
  have hd := h0.configdata fs
  unfold Full.unrollSelf
  dsimp only
  cases hl : Full.configdata fs { f with level := 0 } with
  | mk r1 f1 =>
    cases hl' : Full.configdata fs { f' with level := 0 } with
    | mk r1' f1' =>
      rw [hl, hl'] at hd
      dsimp only at hd
      obtain ⟨h3, h4⟩ := hd
      subst h3
      cases r1' with
      | exc e => exact ⟨rfl, h4⟩
      | diverge => exact ⟨rfl, h4⟩
      | ok c =>
        dsimp only
        rw [h4.env]
        have hu := Twin.unrollBody (f1.env K c) n sec sp f1.obj f1'.obj h4.obj (by simp)
        cases hm : CPE.unrollBody (f1.env K c) n sec sp f1.obj with
        | mk r2 o2 =>
          cases hm' : CPE.unrollBody (f1.env K c) n sec sp f1'.obj with
          | mk r2' o2' =>
            rw [hm, hm'] at hu
            dsimp only at hu
            obtain ⟨h5, h6⟩ := hu
            subst h5
            cases r2' with
            | ok t => exact ⟨rfl, h4.files, h4.delims, h4.cfg, h.level, h6⟩
            | exc e => exact ⟨rfl, h4.files, h4.delims, h4.cfg, h4.level, h6⟩
            | diverge => exact ⟨rfl, h4.files, h4.delims, h4.cfg, h4.level, h6⟩

/-- Every operation on the whole object. -/
theorem FTwins.exec {f f' : Full δ ω} (h : FTwins f f') (K : Env δ ω) (n : Nat) (fs : FS) (op : FOp) :
    (op.exec K n fs f').1 = (op.exec K n fs f).1 ∧ FTwins (op.exec K n fs f).2 (op.exec K n fs f').2 := by
  cases op with
  | files v =>
    obtain ⟨h1, h2, h3, h4, h5⟩ := h
    cases v with
    | badType => exact ⟨rfl, h1, h2, h3, h4, h5⟩
    | one p =>
      unfold FOp.exec Full.setFiles Full.assignFiles
      dsimp only
      cases hf : f.files with
      | none => rw [hf] at h1; rw [h1]; exact ⟨rfl, rfl, h2, h3, h4, h5⟩
      | some x => rw [hf] at h1; rw [h1]; exact ⟨rfl, rfl, h2, rfl, h4, h5.1, h5.2, h5.3, h5.4, rfl, h5.6⟩
    | many ps =>
      unfold FOp.exec Full.setFiles Full.assignFiles
      dsimp only
      cases hf : f.files with
      | none => rw [hf] at h1; rw [h1]; exact ⟨rfl, rfl, h2, h3, h4, h5⟩
      | some x => rw [hf] at h1; rw [h1]; exact ⟨rfl, rfl, h2, rfl, h4, h5.1, h5.2, h5.3, h5.4, rfl, h5.6⟩
  | delims v =>
    obtain ⟨h1, h2, h3, h4, h5⟩ := h
    cases v with
    | none => exact ⟨rfl, h1, h2, h3, h4, h5⟩
    | some ds => exact ⟨rfl, h1, rfl, rfl, h4, rfl, rfl, h5.3, h5.4, rfl, rfl⟩
  | level i =>
    obtain ⟨h1, h2, h3, h4, h5⟩ := h
    exact ⟨rfl, h1, h2, h3, rfl, h5⟩
  | configdata =>
    obtain ⟨h1, h2⟩ := h.configdata fs
    exact ⟨congrArg (Out.map' _) h1, h2⟩
  | lastResult => exact ⟨congrArg (fun x => Out.ok (FVal.last x)) h.obj.last, h⟩
  | ed op =>
    obtain ⟨h1, h2⟩ := h.runOp K n fs op
    exact ⟨congrArg (Out.map' _) h1, h2⟩
  | unroll sec sp b =>
    unfold FOp.exec Full.unroll
    cases b with
    | false =>
      obtain ⟨h1, h2⟩ := h.unrollSelf K n fs sec sp
      exact ⟨congrArg (Out.map' _) h1, h2⟩
    | true =>
      simp only [if_true]
      have hf' := h.files
      cases hf : f.files with
      | none => rw [hf] at hf'; rw [hf']; exact ⟨rfl, h⟩
      | some ps => rw [hf] at hf'; rw [hf']; exact ⟨rfl, h⟩

/-- Whole histories. -/
theorem FTwins.run (K : Env δ ω) (n : Nat) (ops : List (FS × FOp)) {f f' : Full δ ω} (h : FTwins f f') :
    (FOp.run K n ops f').1 = (FOp.run K n ops f).1 ∧ FTwins (FOp.run K n ops f).2 (FOp.run K n ops f').2 := by
  induction ops generalizing f f' with
  | nil => exact ⟨rfl, h⟩
  | cons a ops ih =>
    obtain ⟨fs, op⟩ := a
    obtain ⟨h1, h2⟩ := h.exec K n fs op
    obtain ⟨h3, h4⟩ := ih h2
    unfold FOp.run
    dsimp only
    exact ⟨by rw [h1, h3], h4⟩

end CPE
