import Verif.Proofs.LoadEnv
/-
Lemmas on GenConfig.
-/
namespace CPE.KW
open CPE CPE.Spec CPE.SetEnv CPE.KW.Spec

/-- selected_options_str on the data of the section. -/
def textRes (d : Options) (b : Str) : Out Str := andThen (selectionRes d b) fun l => .ok (l.flatMap fun p => selText p.2)

theorem text_step {E : Env Unit Unit} {n : Nat} {o1 : CObj} {d : Options} (h : edGetItem E n flagSection o1 = (.ok d, o1))
    {k : CKP} (hk : CkpInv d o1 k) :
    ∃ k', CKP.selectedOptionsStr E n k = (textRes d k.buildName, k') ∧ CkpInv d o1 k' ∧ k'.buildName = k.buildName := by
  unfold CKP.selectedOptionsStr textRes
  rw [M.read_bind]
  cases ho : k.selectedStr with
  | some s =>
    obtain ⟨l, h1, rfl⟩ := hk.selectedStr s ho
    exact ⟨k, by rw [h1]; rfl, hk, rfl⟩
  | none =>
    dsimp only
    obtain ⟨k1, h1, h2, h3⟩ := selected_inv h hk
    cases hr : selectionRes d k.buildName with
    | ok l =>
      rw [hr] at h1; rw [M.bind_ok h1]
      refine ⟨{ k1 with selectedStr := some (l.flatMap fun p => selText p.2) }, rfl,
        ⟨h2.obj, h2.flags, h2.selected, ?_, h2.defaults, h2.options⟩, h3⟩
      intro s' h'; cases h'
      exact ⟨l, by rw [← hr]; exact congrArg _ h3, rfl⟩
    | exc e => rw [hr] at h1; rw [M.bind_exc h1]; exact ⟨k1, rfl, h2, h3⟩
    | diverge => rw [hr] at h1; rw [M.bind_diverge h1]; exact ⟨k1, rfl, h2, h3⟩

section
variable (T : Tool)

/-- complete_config, when the section of flags has the data `d`. -/
def completeRes (d : Options) (b : Str) (f : Bool) : Out Str :=
  andThen (parsedRes T b f) fun e => andThen (textRes d b) fun o => .ok (e ++ o)

/-- The canonical form of a section name. -/
def canonRes (d : Options) (f : Bool) (s : Str) : Out Str :=
  andThen (textRes d s) fun o => andThen (parsedRes T s f) fun e => .ok (e ++ o)

def loopRes (d : Options) (f : Bool) : List Str → Out (List (Str × Str))
  | [] => .ok []
  | s :: ss =>
    if T.host.upper s = s then loopRes d f ss
    else andThen (canonRes T d f s) fun c => andThen (loopRes d f ss) fun rest =>
      .ok (if c ≠ s then (s, c) :: rest else rest)

def validateRes (d : Options) : Out Unit :=
  andThen (loopRes T d true T.specs.sectionNames) fun bad => if bad ≠ [] then .exc .valueError else .ok ()

/-- The object is as it should be: what it remembers is right for its arguments. -/
structure GInv (d : Options) (o1 : CObj) (g : GC) : Prop where
  le : ∀ l, g.le = some l → LEInv T l ∧ l.buildName = g.buildName ∧ l.force = g.force
  ckp : ∀ k, g.ckp = some k → CkpInv d o1 k ∧ k.buildName = g.buildName
  complete : ∀ c, g.complete = some c → completeRes T d g.buildName g.force = .ok c
  validated : g.validated = true → validateRes T d = .ok ()

def SameArgs (g g' : GC) : Prop := g'.buildName = g.buildName ∧ g'.force = g.force

variable {T} {d : Options} {o1 : CObj}

theorem ckpNew_read (hr : edGetItem (cls T.flags) T.fuel flagSection (Obj.fresh (cls T.flags) ()) = (.ok d, o1)) (b : Str) :
    ∃ k, CKP.new (cls T.flags) T.fuel b = .ok k ∧ CkpInv d o1 k ∧ k.buildName = b := by
  have : ∃ k, CKP.new (cls T.flags) T.fuel b = .ok k := by unfold CKP.new; rw [hr]; exact ⟨_, rfl⟩
  obtain ⟨k, hk⟩ := this
  obtain ⟨d', o1', hr', hi, hb⟩ := ckpNew_ok hk
  rw [hr] at hr'; cases hr'
  exact ⟨k, hk, hi, hb⟩

/-- After the two parsers were loaded. -/
theorem load_both (hr : edGetItem (cls T.flags) T.fuel flagSection (Obj.fresh (cls T.flags) ()) = (.ok d, o1)) {g : GC}
    (hg : GInv T d o1 g) :
    ∃ k l g', GC.loadCkp T g = (.ok (), { g with ckp := some k }) ∧ g' = { g with ckp := some k, le := some l } ∧
      GC.loadLE { g with ckp := some k } = (.ok (), g') ∧ GInv T d o1 g' := by
  have h1 : ∃ k, GC.loadCkp T g = (.ok (), { g with ckp := some k }) ∧ CkpInv d o1 k ∧ k.buildName = g.buildName := by
    unfold GC.loadCkp
    cases hk : g.ckp with
    | some k => exact ⟨k, by rw [show g = { g with ckp := some k } from by rw [← hk]], hg.ckp k hk⟩
    | none =>
      obtain ⟨k, h1, h2⟩ := ckpNew_read hr g.buildName
      dsimp only
      rw [h1]
      exact ⟨k, rfl, h2⟩
  obtain ⟨k, h1, hk⟩ := h1
  have h2 : ∃ l, GC.loadLE { g with ckp := some k } = (.ok (), { g with ckp := some k, le := some l }) ∧
      LEInv T l ∧ l.buildName = g.buildName ∧ l.force = g.force := by
    obtain ⟨a, b, c, le, x, y⟩ := g
    cases le with
    | some l => exact ⟨l, rfl, hg.le l rfl⟩
    | none => exact ⟨LE.new a b, rfl, leInv_new _ _, rfl, rfl⟩
  obtain ⟨l, h2, hl⟩ := h2
  refine ⟨k, l, _, h1, rfl, h2, ⟨?_, ?_, hg.complete, hg.validated⟩⟩
  · intro l' h'; cases h'; exact hl
  · intro k' h'; cases h'; exact hk

theorem onLE_step {α : Type} {m : M LE α} {g : GC} {l l' : LE} {r : Out α} (h : g.le = some l) (hm : m l = (r, l')) :
    GC.onLE m g = (r, { g with le := some l' }) := by
  unfold GC.onLE; rw [h]; dsimp only; rw [hm]

theorem onCkp_step {α : Type} {m : M CKP α} {g : GC} {k k' : CKP} {r : Out α} (h : g.ckp = some k) (hm : m k = (r, k')) :
    GC.onCkp m g = (r, { g with ckp := some k' }) := by
  unfold GC.onCkp; rw [h]; dsimp only; rw [hm]

/-- complete_config computed from the two parsers. -/
theorem complete_core (hr : edGetItem (cls T.flags) T.fuel flagSection (Obj.fresh (cls T.flags) ()) = (.ok d, o1)) {g : GC} {k : CKP}
    {l : LE} (hk : g.ckp = some k) (hl : g.le = some l) (hk1 : CkpInv d o1 k) (hl1 : LEInv T l) (hb : l.buildName = k.buildName) :
    ∃ g' k' l', (GC.onLE (LE.getParsedEnvName T) >>= fun e => GC.onCkp (CKP.selectedOptionsStr (cls T.flags) T.fuel) >>= fun o => do
        M.modify fun g => { g with complete := some (e ++ o) }
        pure (e ++ o)) g = (completeRes T d l.buildName l.force, g') ∧
      g' = { g with ckp := some k', le := some l',
                    complete := (match completeRes T d l.buildName l.force with | .ok c => some c | _ => g.complete) } ∧
      CkpInv d o1 k' ∧ k'.buildName = k.buildName ∧ LEInv T l' ∧ Same l l' := by
  obtain ⟨l', h1, hl2, hs⟩ := parsed_step hl1
  have e1 := onLE_step hl h1
  cases hp : parsedRes T l.buildName l.force with
  | exc e =>
    rw [hp] at e1
    rw [M.bind_exc e1]
    have : completeRes T d l.buildName l.force = .exc e := by rw [completeRes, hp]; rfl
    refine ⟨_, k, l', by rw [this], ?_, hk1, rfl, hl2, hs⟩
    rw [this, ← hk]
  | diverge =>
    rw [hp] at e1
    rw [M.bind_diverge e1]
    have : completeRes T d l.buildName l.force = .diverge := by rw [completeRes, hp]; rfl
    refine ⟨_, k, l', by rw [this], ?_, hk1, rfl, hl2, hs⟩
    rw [this, ← hk]
  | ok e =>
    rw [hp] at e1
    rw [M.bind_ok e1]
    obtain ⟨k', h2, hk2, hkb⟩ := text_step (getItem_again hr T.fuel) hk1
    have e2 := onCkp_step (g := { g with le := some l' }) hk h2
    have hc : completeRes T d l.buildName l.force = andThen (textRes d k.buildName) fun o => .ok (e ++ o) := by
      rw [completeRes, hp, hb]; rfl
    rw [hc]
    cases ht : textRes d k.buildName with
    | exc x => rw [ht] at e2; rw [M.bind_exc e2]; exact ⟨_, k', l', rfl, rfl, hk2, hkb, hl2, hs⟩
    | diverge => rw [ht] at e2; rw [M.bind_diverge e2]; exact ⟨_, k', l', rfl, rfl, hk2, hkb, hl2, hs⟩
    | ok o => rw [ht] at e2; rw [M.bind_ok e2]; exact ⟨_, k', l', rfl, rfl, hk2, hkb, hl2, hs⟩

theorem complete_step (hr : edGetItem (cls T.flags) T.fuel flagSection (Obj.fresh (cls T.flags) ()) = (.ok d, o1)) {g : GC}
    (hg : GInv T d o1 g) :
    ∃ g', GC.completeConfig T g = (completeRes T d g.buildName g.force, g') ∧ GInv T d o1 g' ∧ SameArgs g g' := by
  unfold GC.completeConfig
  rw [M.read_bind]
  cases hc : g.complete with
  | some c => exact ⟨g, by rw [hg.complete c hc]; rfl, hg, rfl, rfl⟩
  | none =>
    dsimp only
    obtain ⟨k, l, g1, h1, hg1, h2, hi⟩ := load_both hr hg
    rw [M.bind_ok h1, M.bind_ok h2]
    have hk1 := hi.ckp k (by rw [hg1])
    have hl1 := hi.le l (by rw [hg1])
    have hgb : g1.buildName = g.buildName := by rw [hg1]
    have hgf : g1.force = g.force := by rw [hg1]
    obtain ⟨g2, k', l', e, hg2, a1, a2, a3, a4⟩ := complete_core hr (g := g1) (k := k) (l := l) (by rw [hg1]) (by rw [hg1])
      hk1.1 hl1.1 (hl1.2.1.trans hk1.2.symm)
    have hb : l.buildName = g.buildName := hl1.2.1.trans hgb
    have hf : l.force = g.force := hl1.2.2.trans hgf
    rw [hb, hf] at e hg2
    refine ⟨g2, e, ⟨?_, ?_, ?_, ?_⟩, ?_⟩
    · intro l2 h'; rw [hg2] at h'; cases h'
      refine ⟨a3, ?_, ?_⟩
      · rw [a4.1, hb, hg2, hgb]
      · rw [a4.2, hf, hg2, hgf]
    · intro k2 h'; rw [hg2] at h'; cases h'
      refine ⟨a1, ?_⟩
      rw [a2, hk1.2, hg2]
    · intro c' h'
      rw [hg2] at h'
      dsimp only at h'
      have : g2.buildName = g.buildName ∧ g2.force = g.force := by rw [hg2]; exact ⟨hgb, hgf⟩
      rw [this.1, this.2]
      cases hcr : completeRes T d g.buildName g.force with
      | ok c => rw [hcr] at h'; cases h'; rfl
      | exc x => rw [hcr] at h'; rw [hg1] at h'; rw [show g.complete = none from hc] at h'; cases h'
      | diverge => rw [hcr] at h'; rw [hg1] at h'; rw [show g.complete = none from hc] at h'; cases h'
    · intro h'; exact hi.validated (by rw [hg2] at h'; exact h')
    · rw [hg2]; exact ⟨hgb, hgf⟩

/-- The last section that the validation looks at. -/
def lastChecked : List Str → Option Str
  | [] => none
  | s :: ss => match lastChecked ss with
    | some x => some x
    | none => if T.host.upper s = s then none else some s

/-- The loop of the validation. -/
theorem loop_step (hr : edGetItem (cls T.flags) T.fuel flagSection (Obj.fresh (cls T.flags) ()) = (.ok d, o1)) (ss : List Str) {g : GC}
    {k : CKP} {l : LE} (hk : g.ckp = some k) (hl : g.le = some l) (hk1 : CkpInv d o1 k) :
    ∃ k' l', GC.validateLoop T ss g = (loopRes T d l.force ss, { g with ckp := some k', le := some l' }) ∧ CkpInv d o1 k' ∧
      l'.force = l.force ∧
      (∀ bad, loopRes T d l.force ss = .ok bad → ∀ s, lastChecked (T := T) ss = some s →
        LEInv T l' ∧ l'.buildName = s ∧ k'.buildName = s) ∧
      (lastChecked (T := T) ss = none → k' = k ∧ l' = l) := by
  induction ss generalizing g k l with
  | nil =>
    refine ⟨k, l, ?_, hk1, rfl, ?_, fun _ => ⟨rfl, rfl⟩⟩
    · show (Out.ok [], g) = (Out.ok [], _)
      rw [← hk, ← hl]
    · intro _ _ s h; cases h
  | cons s ss ih =>
    unfold GC.validateLoop loopRes
    by_cases hu : T.host.upper s = s
    · rw [if_pos hu, if_pos hu]
      obtain ⟨k', l', h1, h2, h3, h4, h5⟩ := ih hk hl hk1
      refine ⟨k', l', h1, h2, h3, ?_, ?_⟩
      · intro bad hb x hx
        rw [lastChecked] at hx
        cases hy : lastChecked (T := T) ss with
        | some y => rw [hy] at hx; cases hx; exact h4 bad hb _ hy
        | none => rw [hy] at hx; dsimp only at hx; rw [if_pos hu] at hx; cases hx
      · intro hx
        rw [lastChecked] at hx
        cases hy : lastChecked (T := T) ss with
        | some y => rw [hy] at hx; cases hx
        | none => exact h5 hy
    · rw [if_neg hu, if_neg hu]
      have hlast : lastChecked (T := T) (s :: ss) ≠ none := by
        rw [lastChecked]
        cases lastChecked (T := T) ss with
        | some y => simp
        | none => dsimp only; rw [if_neg hu]; simp
      -- the two assignments
      have e1 : GC.onLE (LE.setBuildName s) g = (.ok (), { g with le := some (LE.new s l.force) }) := onLE_step hl rfl
      rw [M.bind_ok e1]
      have e2 : GC.onCkp (CKP.setBuildName s) { g with le := some (LE.new s l.force) } = (.ok (),
          { g with le := some (LE.new s l.force), ckp := some { k with selectedStr := none, selected := none, buildName := s } }) :=
        onCkp_step hk rfl
      rw [M.bind_ok e2]
      have hk2 : CkpInv d o1 { k with selectedStr := none, selected := none, buildName := s } :=
        ⟨hk1.obj, hk1.flags, (fun l h => by cases h), (fun s h => by cases h), hk1.defaults, hk1.options⟩
      obtain ⟨k1, ht, hk3, hkb⟩ := text_step (getItem_again hr T.fuel) hk2
      rw [show ({ k with selectedStr := none, selected := none, buildName := s } : CKP).buildName = s from rfl] at ht hkb
      have e3 : GC.onCkp (CKP.selectedOptionsStr (cls T.flags) T.fuel)
          { g with le := some (LE.new s l.force), ckp := some { k with selectedStr := none, selected := none, buildName := s } } =
          (textRes d s, { g with le := some (LE.new s l.force), ckp := some k1 }) := onCkp_step rfl ht
      rw [canonRes]
      cases hx : textRes d s with
      | exc e =>
        rw [hx] at e3; rw [M.bind_exc e3]
        exact ⟨k1, _, rfl, hk3, rfl, (fun bad hb => by cases hb), (fun h => absurd h hlast)⟩
      | diverge =>
        rw [hx] at e3; rw [M.bind_diverge e3]
        exact ⟨k1, _, rfl, hk3, rfl, (fun bad hb => by cases hb), (fun h => absurd h hlast)⟩
      | ok o =>
        rw [hx] at e3; rw [M.bind_ok e3]
        obtain ⟨l1, hp, hl1, hs1⟩ := parsed_step (leInv_new (T := T) s l.force)
        have e4 : GC.onLE (LE.getParsedEnvName T) { g with le := some (LE.new s l.force), ckp := some k1 } =
          (parsedRes T s l.force, { g with le := some l1, ckp := some k1 }) := onLE_step rfl hp
        show ∃ k' l', _ = (andThen (andThen (parsedRes T s l.force) _) _, _) ∧ _ ∧ _ ∧ (∀ bad, andThen (andThen (parsedRes T s l.force) _) _ = _ → _) ∧ _
        cases hq : parsedRes T s l.force with
        | exc e =>
          rw [hq] at e4; rw [M.bind_exc e4]
          exact ⟨k1, l1, rfl, hk3, hs1.2, (fun bad hb => by cases hb), (fun h => absurd h hlast)⟩
        | diverge =>
          rw [hq] at e4; rw [M.bind_diverge e4]
          exact ⟨k1, l1, rfl, hk3, hs1.2, (fun bad hb => by cases hb), (fun h => absurd h hlast)⟩
        | ok e =>
          rw [hq] at e4; rw [M.bind_ok e4]
          obtain ⟨k', l', h1, h2, h3, h4, h5⟩ := ih (g := { g with le := some l1, ckp := some k1 }) (k := k1) (l := l1) rfl rfl hk3
          have hf : l1.force = l.force := hs1.2
          rw [hf] at h1 h3 h4
          refine ⟨k', l', ?_, h2, h3, ?_, fun h => absurd h hlast⟩
          · show (GC.validateLoop T ss >>= fun rest => pure (if e ++ o ≠ s then (s, e ++ o) :: rest else rest)) _ = _
            rw [wrap_step h1]; rfl
          · intro bad hb x hx
            rw [lastChecked] at hx
            have hrest : ∃ rest, loopRes T d l.force ss = .ok rest := by
              cases hrr : loopRes T d l.force ss with
              | ok rest => exact ⟨rest, rfl⟩
              | exc e => rw [hrr] at hb; cases hb
              | diverge => rw [hrr] at hb; cases hb
            obtain ⟨rest, hrest⟩ := hrest
            cases hy : lastChecked (T := T) ss with
            | some y => rw [hy] at hx; cases hx; exact h4 rest hrest _ hy
            | none =>
              rw [hy] at hx; dsimp only at hx; rw [if_neg hu] at hx; cases hx
              obtain ⟨rfl, rfl⟩ := h5 hy
              exact ⟨hl1, hs1.1, hkb⟩

/-- What the validation leaves behind. -/
theorem validate_step (hr : edGetItem (cls T.flags) T.fuel flagSection (Obj.fresh (cls T.flags) ()) = (.ok d, o1)) {g : GC}
    (hg : GInv T d o1 g) :
    ∃ g', GC.validate T g = (validateRes T d, g') ∧ SameArgs g g' ∧ g'.complete = g.complete ∧
      (validateRes T d = .ok () → GInv T d o1 g' ∧ g'.validated = true) ∧
      (∀ bad s, loopRes T d true T.specs.sectionNames = .ok bad → bad ≠ [] → lastChecked (T := T) T.specs.sectionNames = some s →
        ∃ k l, g'.ckp = some k ∧ g'.le = some l ∧ CkpInv d o1 k ∧ LEInv T l ∧ k.buildName = s ∧ l.buildName = s ∧ l.force = true) := by
  unfold GC.validate
  obtain ⟨k, l, g1, h1, hg1, h2, hi⟩ := load_both hr hg
  rw [M.bind_ok h1, M.bind_ok h2]
  have e0 : GC.onLE (M.modify fun l => { l with force := true }) g1 = (.ok (), { g1 with le := some { l with force := true } }) :=
    onLE_step (by rw [hg1]) rfl
  rw [M.bind_ok e0]
  have hk1 := hi.ckp k (by rw [hg1])
  obtain ⟨k', l', h3, h4, h5, h6, h7⟩ := loop_step hr T.specs.sectionNames (g := { g1 with le := some { l with force := true } })
    (k := k) (l := { l with force := true }) (by rw [hg1]) rfl hk1.1
  rw [show ({ l with force := true } : LE).force = true from rfl] at h3 h5 h6
  have hsame : SameArgs g g1 := by rw [hg1]; exact ⟨rfl, rfl⟩
  have hcomp : g1.complete = g.complete := by rw [hg1]
  rw [validateRes]
  change GC.validateLoop T (edKeys (cls T.specs)) _ = _ at h3
  cases hl : loopRes T d true T.specs.sectionNames with
  | exc e =>
    rw [hl] at h3; rw [M.bind_exc h3]
    exact ⟨_, rfl, hsame, hcomp, (fun h => by cases h), (fun bad s h => by cases h)⟩
  | diverge =>
    rw [hl] at h3; rw [M.bind_diverge h3]
    exact ⟨_, rfl, hsame, hcomp, (fun h => by cases h), (fun bad s h => by cases h)⟩
  | ok bad =>
    rw [hl] at h3; rw [M.bind_ok h3]
    by_cases hb : bad ≠ []
    · rw [if_pos hb]
      refine ⟨{ g1 with ckp := some k', le := some l' }, ?_, hsame, hcomp, ?_, ?_⟩
      · show _ = ((if bad ≠ [] then Out.exc PyExc.valueError else Out.ok ()), _)
        rw [if_pos hb]; rfl
      · intro h; replace h : (if bad ≠ [] then Out.exc PyExc.valueError else Out.ok ()) = Out.ok () := h
        rw [if_pos hb] at h; cases h
      · intro bad' s h _ hs
        obtain ⟨i1, i2, i3⟩ := h6 bad hl s hs
        exact ⟨k', l', rfl, rfl, h4, i1, i3, i2, h5⟩
    · rw [if_neg hb]
      refine ⟨{ g1 with le := some (LE.new g1.buildName g1.force),
                        ckp := some { k' with selectedStr := none, selected := none, buildName := g1.buildName },
                        validated := true }, ?_, hsame, hcomp, ?_, ?_⟩
      · show _ = ((if bad ≠ [] then Out.exc PyExc.valueError else Out.ok ()), _)
        rw [if_neg hb]; rfl
      · intro _
        refine ⟨⟨?_, ?_, hi.complete, ?_⟩, rfl⟩
        · intro l2 h'; cases h'; exact ⟨leInv_new _ _, rfl, rfl⟩
        · intro k2 h'; cases h'
          exact ⟨⟨h4.obj, h4.flags, (fun l h => by cases h), (fun s h => by cases h), h4.defaults, h4.options⟩, rfl⟩
        · intro _
          rw [validateRes, hl]
          show (if bad ≠ [] then Out.exc PyExc.valueError else Out.ok ()) = _
          rw [if_neg hb]
      · intro bad' s h hb' _
        cases h; exact absurd hb' hb

/-- What the operations yield. -/
def gcRes (T : Tool) (d : Options) (b : Str) (f : Bool) : GcOp → Out GcVal
  | .completeConfig => andThen (completeRes T d b f) fun s => .ok (.str s)
  | .validate => andThen (validateRes T d) fun _ => .ok .unit
  | .configForOptions => andThen (andThen (validateRes T d) fun _ => completeRes T d b f) fun s => .ok (.str s)
  | .listConfigs => andThen (andThen (sysRes T b f) fun s => match s with
      | none => .exc .typeError
      | some s => .ok ((edKeys (cls T.specs)).filter fun c => startsWith s c)) fun l => .ok (.strs l)

def listRes (T : Tool) (b : Str) (f : Bool) : Out (List Str) :=
  andThen (sysRes T b f) fun s => match s with
      | none => .exc .typeError
      | some s => .ok ((edKeys (cls T.specs)).filter fun c => startsWith s c)

/-- list_configs: it needs the LoadEnv object only. -/
theorem list_step {g : GC} (hg : ∀ l, g.le = some l → LEInv T l ∧ l.buildName = g.buildName ∧ l.force = g.force) :
    ∃ l, GC.listConfigs T g = (listRes T g.buildName g.force, { g with le := some l }) ∧
      LEInv T l ∧ l.buildName = g.buildName ∧ l.force = g.force := by
  have h0 : ∃ l, GC.loadLE g = (.ok (), { g with le := some l }) ∧ LEInv T l ∧ l.buildName = g.buildName ∧ l.force = g.force := by
    obtain ⟨a, b, c, le, x, y⟩ := g
    cases le with
    | some l => exact ⟨l, rfl, hg l rfl⟩
    | none => exact ⟨LE.new a b, rfl, leInv_new _ _, rfl, rfl⟩
  obtain ⟨l, h0, h1, h2, h3⟩ := h0
  unfold GC.listConfigs listRes
  rw [M.bind_ok h0]
  obtain ⟨l', e1, i1, i2, _⟩ := system_step h1
  have e2 : GC.onLE (LE.getSystemName T) { g with le := some l } = (sysRes T l.buildName l.force, { g with le := some l' }) :=
    onLE_step rfl e1
  rw [h2, h3] at e2
  refine ⟨l', ?_, i1, i2.1.trans h2, i2.2.trans h3⟩
  cases hs : sysRes T g.buildName g.force with
  | exc e => rw [hs] at e2; rw [M.bind_exc e2]; rfl
  | diverge => rw [hs] at e2; rw [M.bind_diverge e2]; rfl
  | ok r =>
    rw [hs] at e2; rw [M.bind_ok e2]
    cases r with
    | none => rfl
    | some s => rfl

/-- One operation on a sound object. -/
theorem gc_exec (hr : edGetItem (cls T.flags) T.fuel flagSection (Obj.fresh (cls T.flags) ()) = (.ok d, o1)) {g : GC}
    (hg : GInv T d o1 g) (op : GcOp) :
    ∃ g', GcOp.exec T op g = (gcRes T d g.buildName g.force op, g') ∧ SameArgs g g' ∧
      ((op.validates = true → ∃ v, gcRes T d g.buildName g.force op = .ok v) → GInv T d o1 g') := by
  cases op with
  | completeConfig =>
    obtain ⟨g', h1, h2, h3⟩ := complete_step hr hg
    exact ⟨g', wrap_step h1 _, h3, fun _ => h2⟩
  | validate =>
    obtain ⟨g', h1, h2, h3, h4, _⟩ := validate_step hr hg
    refine ⟨g', ?_, h2, fun h => ?_⟩
    · exact wrap_step h1 (fun _ => GcVal.unit)
    · obtain ⟨v, hv⟩ := h rfl
      refine (h4 ?_).1
      simp only [gcRes] at hv
      cases hx : validateRes T d with
      | ok u => rfl
      | exc e => rw [hx] at hv; cases hv
      | diverge => rw [hx] at hv; cases hv
  | listConfigs =>
    obtain ⟨l, h1, h2⟩ := list_step hg.le
    refine ⟨_, wrap_step h1 _, ⟨rfl, rfl⟩, fun _ => ⟨?_, hg.ckp, hg.complete, hg.validated⟩⟩
    intro l' h'; cases h'; exact h2
  | configForOptions =>
    have hcore : ∃ g', GC.configForOptions T g = (andThen (validateRes T d) (fun _ => completeRes T d g.buildName g.force), g') ∧
        SameArgs g g' ∧ (validateRes T d = .ok () → GInv T d o1 g') := by
      unfold GC.configForOptions
      rw [M.read_bind]
      by_cases hv : g.validated = false
      · rw [if_pos hv]
        obtain ⟨g1, h1, h2, h3, h4, _⟩ := validate_step hr hg
        cases hx : validateRes T d with
        | exc e => rw [hx] at h1; rw [M.bind_exc h1]; exact ⟨g1, rfl, h2, fun h => by cases h⟩
        | diverge => rw [hx] at h1; rw [M.bind_diverge h1]; exact ⟨g1, rfl, h2, fun h => by cases h⟩
        | ok u =>
          rw [hx] at h1; rw [M.bind_ok h1]
          obtain ⟨g2, e1, e2, e3⟩ := complete_step hr (h4 hx).1
          rw [h2.1, h2.2] at e1
          exact ⟨g2, e1, ⟨e3.1.trans h2.1, e3.2.trans h2.2⟩, fun _ => e2⟩
      · rw [if_neg hv]
        have hv' : g.validated = true := by cases h : g.validated <;> simp_all
        obtain ⟨g2, e1, e2, e3⟩ := complete_step hr hg
        refine ⟨g2, ?_, e3, fun _ => e2⟩
        rw [hg.validated hv', e1]; rfl
    obtain ⟨g', h1, h2, h3⟩ := hcore
    refine ⟨g', wrap_step h1 _, h2, fun h => h3 ?_⟩
    obtain ⟨v, hv⟩ := h rfl
    simp only [gcRes] at hv
    cases hx : validateRes T d with
    | ok u => rfl
    | exc e => rw [hx] at hv; cases hv
    | diverge => rw [hx] at hv; cases hv

theorem gInv_new (b : Str) (f : Bool) : GInv T d o1 (GC.new b f) :=
  ⟨(fun l h => by cases h), (fun l h => by cases h), (fun l h => by cases h), (fun h => by cases h)⟩

theorem gc_run (hr : edGetItem (cls T.flags) T.fuel flagSection (Obj.fresh (cls T.flags) ()) = (.ok d, o1)) (ops : List GcOp) {g : GC}
    (hg : GInv T d o1 g) (hc : GcOp.Clean T ops g) : GInv T d o1 (GcOp.run T ops g) ∧ SameArgs g (GcOp.run T ops g) := by
  induction ops generalizing g with
  | nil => exact ⟨hg, rfl, rfl⟩
  | cons op ops ih =>
    obtain ⟨hc1, hc2⟩ := hc
    obtain ⟨g', h1, h2, h3⟩ := gc_exec hr hg op
    rw [h1] at hc1 hc2
    obtain ⟨i1, i2⟩ := ih (h3 hc1) hc2
    rw [GcOp.run, h1]
    exact ⟨i1, i2.1.trans h2.1, i2.2.trans h2.2⟩

/-- The object when the section of flags cannot be read. -/
structure GBlank (T : Tool) (g : GC) : Prop where
  le : ∀ l, g.le = some l → LEInv T l ∧ l.buildName = g.buildName ∧ l.force = g.force
  ckp : g.ckp = none
  complete : g.complete = none
  validated : g.validated = false

/-- Whatever the constructor of the parser does that is no result. -/
def stuck {α β : Type} : Out α → Out β
  | .exc e => .exc e
  | _ => .diverge

def gcResBlank (T : Tool) (b : Str) (f : Bool) (r : Out CKP) : GcOp → Out GcVal
  | .listConfigs => andThen (listRes T b f) fun l => .ok (.strs l)
  | _ => stuck r

theorem ckpNew_stuck (b b' : Str) (h : ∀ k, CKP.new (cls T.flags) T.fuel b ≠ .ok k) :
    (∀ k, CKP.new (cls T.flags) T.fuel b' ≠ .ok k) := by
  intro k hk
  obtain ⟨d', o1', hr', hi, hb⟩ := ckpNew_ok hk
  obtain ⟨k2, h2, _⟩ := ckpNew_read hr' b
  exact h k2 h2

theorem blank_exec {g : GC} (hg : GBlank T g) (hn : ∀ k, CKP.new (cls T.flags) T.fuel g.buildName ≠ .ok k) (op : GcOp) :
    ∃ g', GcOp.exec T op g = (gcResBlank T g.buildName g.force (CKP.new (cls T.flags) T.fuel g.buildName) op, g') ∧ SameArgs g g' ∧
      GBlank T g' := by
  have hl : GC.loadCkp T g = (stuck (CKP.new (cls T.flags) T.fuel g.buildName), g) := by
    unfold GC.loadCkp
    rw [hg.ckp]
    dsimp only
    cases hx : CKP.new (cls T.flags) T.fuel g.buildName with
    | ok k => exact absurd hx (hn k)
    | exc e => rfl
    | diverge => rfl
  have hstuck : ∀ {α : Type} (f : Unit → M GC α), (GC.loadCkp T >>= f) g = (stuck (CKP.new (cls T.flags) T.fuel g.buildName), g) := by
    intro α f
    cases hx : CKP.new (cls T.flags) T.fuel g.buildName with
    | ok k => exact absurd hx (hn k)
    | exc e => rw [hx] at hl; rw [M.bind_exc hl]; rfl
    | diverge => rw [hx] at hl; rw [M.bind_diverge hl]; rfl
  have hthen : ∀ {α β : Type} (r : Out α) (f : β → Out GcVal), andThen (stuck r) f = stuck r := by
    intro α β r f; cases r <;> rfl
  have hcc : GC.completeConfig T g = (stuck (CKP.new (cls T.flags) T.fuel g.buildName), g) := by
    unfold GC.completeConfig
    rw [M.read_bind, hg.complete]
    exact hstuck _
  have hva : GC.validate T g = (stuck (CKP.new (cls T.flags) T.fuel g.buildName), g) := by
    unfold GC.validate
    exact hstuck _
  have hco : GC.configForOptions T g = (stuck (CKP.new (cls T.flags) T.fuel g.buildName), g) := by
    unfold GC.configForOptions
    rw [M.read_bind, hg.validated, if_pos rfl]
    cases hx : CKP.new (cls T.flags) T.fuel g.buildName with
    | ok k => exact absurd hx (hn k)
    | exc e => rw [hx] at hva; rw [M.bind_exc hva]; rfl
    | diverge => rw [hx] at hva; rw [M.bind_diverge hva]; rfl
  cases op with
  | completeConfig => exact ⟨g, by rw [GcOp.exec, wrap_step hcc, hthen]; rfl, ⟨rfl, rfl⟩, hg⟩
  | validate => exact ⟨g, (wrap_step hva (fun _ => GcVal.unit)).trans (by rw [hthen]; rfl), ⟨rfl, rfl⟩, hg⟩
  | configForOptions => exact ⟨g, by rw [GcOp.exec, wrap_step hco, hthen]; rfl, ⟨rfl, rfl⟩, hg⟩
  | listConfigs =>
    obtain ⟨l, h1, h2⟩ := list_step hg.le
    refine ⟨_, wrap_step h1 _, ⟨rfl, rfl⟩, ⟨?_, hg.ckp, hg.complete, hg.validated⟩⟩
    intro l' h'; cases h'; exact h2

theorem gBlank_new (b : Str) (f : Bool) : GBlank T (GC.new b f) := ⟨(fun l h => by cases h), rfl, rfl, rfl⟩

theorem blank_run (ops : List GcOp) {g : GC} (hg : GBlank T g) (hn : ∀ k, CKP.new (cls T.flags) T.fuel g.buildName ≠ .ok k) :
    GBlank T (GcOp.run T ops g) ∧ SameArgs g (GcOp.run T ops g) := by
  induction ops generalizing g with
  | nil => exact ⟨hg, rfl, rfl⟩
  | cons op ops ih =>
    obtain ⟨g', h1, h2, h3⟩ := blank_exec hg hn op
    obtain ⟨i1, i2⟩ := ih h3 (by rw [h2.1]; exact hn)
    rw [GcOp.run, h1]
    exact ⟨i1, i2.1.trans h2.1, i2.2.trans h2.2⟩

/-! ### After a failed validation -/

/-- What is known of an object after any history if the validation fails. -/
structure GWeak (d : Options) (o1 : CObj) (g : GC) : Prop where
  ckp : ∀ k, g.ckp = some k → CkpInv d o1 k
  validated : g.validated = false

/-- `m` keeps `P`. -/
def Keep {W α : Type} (P : W → Prop) (m : M W α) : Prop := ∀ w, P w → P (m w).2

theorem Keep.bind {W α β : Type} {P : W → Prop} {m : M W α} {f : α → M W β} (hm : Keep P m) (hf : ∀ a, Keep P (f a)) :
    Keep P (m >>= f) := by
  intro w hw
  have h1 := hm w hw
  rw [M.bind_def]
  cases h : m w with
  | mk o w' =>
    rw [h] at h1
    cases o with
    | ok a => exact hf a w' h1
    | exc e => exact h1
    | diverge => exact h1

theorem Keep.pure {W α : Type} {P : W → Prop} (a : α) : Keep P (Pure.pure a : M W α) := fun _ h => h

theorem Keep.raise {W α : Type} {P : W → Prop} (e : PyExc) : Keep P (M.raise e : M W α) := fun _ h => h

theorem Keep.modify {W : Type} {P : W → Prop} {f : W → W} (h : ∀ w, P w → P (f w)) : Keep P (M.modify f) := fun w hw => h w hw

theorem keep_onLE {α : Type} (m : M LE α) : Keep (GWeak d o1) (GC.onLE m) := by
  intro g hg
  unfold GC.onLE
  cases g.le with
  | none => exact hg
  | some l =>
    dsimp only
    cases m l with
    | mk r l' => exact ⟨hg.ckp, hg.validated⟩

theorem keep_loadLE : Keep (GWeak d o1) GC.loadLE := by
  intro g hg
  show GWeak d o1 (match g.le with
    | some _ => g
    | none => { g with le := some (LE.new g.buildName g.force) })
  cases g.le with
  | some l => exact hg
  | none => exact ⟨hg.ckp, hg.validated⟩

theorem keep_loadCkp (hr : edGetItem (cls T.flags) T.fuel flagSection (Obj.fresh (cls T.flags) ()) = (.ok d, o1)) :
    Keep (GWeak d o1) (GC.loadCkp T) := by
  intro g hg
  unfold GC.loadCkp
  cases hk : g.ckp with
  | some k => exact hg
  | none =>
    dsimp only
    obtain ⟨k, h1, h2, _⟩ := ckpNew_read hr g.buildName
    rw [h1]
    exact ⟨(fun k' h' => by cases h'; exact h2), hg.validated⟩

theorem keep_text (hr : edGetItem (cls T.flags) T.fuel flagSection (Obj.fresh (cls T.flags) ()) = (.ok d, o1)) :
    Keep (GWeak d o1) (GC.onCkp (CKP.selectedOptionsStr (cls T.flags) T.fuel)) := by
  intro g hg
  unfold GC.onCkp
  cases hk : g.ckp with
  | none => exact hg
  | some k =>
    dsimp only
    obtain ⟨k', h1, h2, _⟩ := text_step (getItem_again hr T.fuel) (hg.ckp k hk)
    rw [h1]
    exact ⟨(fun k'' h' => by cases h'; exact h2), hg.validated⟩

theorem keep_complete (hr : edGetItem (cls T.flags) T.fuel flagSection (Obj.fresh (cls T.flags) ()) = (.ok d, o1)) :
    Keep (GWeak d o1) (GC.completeConfig T) := by
  intro g hg
  unfold GC.completeConfig
  rw [M.read_bind]
  cases g.complete with
  | some c => exact hg
  | none =>
    refine Keep.bind (keep_loadCkp hr) (fun _ => ?_) g hg
    refine Keep.bind keep_loadLE fun _ => Keep.bind (keep_onLE _) fun _ => Keep.bind (keep_text hr) fun _ => ?_
    exact Keep.bind (Keep.modify (fun g h => ⟨h.ckp, h.validated⟩)) fun _ => Keep.pure _

theorem validate_weak (hr : edGetItem (cls T.flags) T.fuel flagSection (Obj.fresh (cls T.flags) ()) = (.ok d, o1)) {g : GC}
    (hg : GWeak d o1 g) (hv : validateRes T d ≠ .ok ()) :
    (GC.validate T g).1 = validateRes T d ∧ GWeak d o1 (GC.validate T g).2 := by
  have h1 : ∃ k, GC.loadCkp T g = (.ok (), { g with ckp := some k }) ∧ CkpInv d o1 k := by
    unfold GC.loadCkp
    cases hk : g.ckp with
    | some k => exact ⟨k, by rw [show g = { g with ckp := some k } from by rw [← hk]], hg.ckp k hk⟩
    | none =>
      obtain ⟨k, h1, h2, _⟩ := ckpNew_read hr g.buildName
      dsimp only
      rw [h1]
      exact ⟨k, rfl, h2⟩
  obtain ⟨k, h1, hk⟩ := h1
  have h2 : ∃ l, GC.loadLE { g with ckp := some k } = (.ok (), { g with ckp := some k, le := some l }) := by
    obtain ⟨a, b, c, le, x, y⟩ := g
    cases le with
    | some l => exact ⟨l, rfl⟩
    | none => exact ⟨LE.new a b, rfl⟩
  obtain ⟨l, h2⟩ := h2
  unfold GC.validate
  rw [M.bind_ok h1, M.bind_ok h2]
  have e0 : GC.onLE (M.modify fun l => { l with force := true }) { g with ckp := some k, le := some l } =
      (.ok (), { g with ckp := some k, le := some { l with force := true } }) := onLE_step rfl rfl
  rw [M.bind_ok e0]
  obtain ⟨k', l', h3, h4, _⟩ := loop_step hr T.specs.sectionNames (g := { g with ckp := some k, le := some { l with force := true } })
    (k := k) (l := { l with force := true }) rfl rfl hk
  rw [show ({ l with force := true } : LE).force = true from rfl] at h3
  change GC.validateLoop T (edKeys (cls T.specs)) _ = _ at h3
  have hw : ∀ (c : Option Str), GWeak d o1 { g with ckp := some k', le := some l', complete := c } :=
    fun _ => ⟨(fun k'' h' => by cases h'; exact h4), hg.validated⟩
  rw [validateRes] at hv ⊢
  cases hl : loopRes T d true T.specs.sectionNames with
  | exc e => rw [hl] at h3; rw [M.bind_exc h3]; exact ⟨rfl, hw _⟩
  | diverge => rw [hl] at h3; rw [M.bind_diverge h3]; exact ⟨rfl, hw _⟩
  | ok bad =>
    rw [hl] at h3; rw [M.bind_ok h3]
    by_cases hb : bad ≠ []
    · rw [if_pos hb]
      refine ⟨?_, hw _⟩
      show _ = (if bad ≠ [] then Out.exc PyExc.valueError else Out.ok ())
      rw [if_pos hb]; rfl
    · exfalso
      rw [hl] at hv
      apply hv
      show (if bad ≠ [] then Out.exc PyExc.valueError else Out.ok ()) = _
      rw [if_neg hb]

theorem options_weak (hr : edGetItem (cls T.flags) T.fuel flagSection (Obj.fresh (cls T.flags) ()) = (.ok d, o1)) {g : GC}
    (hg : GWeak d o1 g) (hv : validateRes T d ≠ .ok ()) :
    (GC.configForOptions T g).1 = andThen (validateRes T d) (fun _ => .diverge) ∧ GWeak d o1 (GC.configForOptions T g).2 := by
  obtain ⟨h1, h2⟩ := validate_weak hr hg hv
  unfold GC.configForOptions
  rw [M.read_bind, if_pos hg.validated, M.bind_def]
  cases hx : GC.validate T g with
  | mk o g' =>
    rw [hx] at h1 h2
    dsimp only at h1
    subst h1
    cases hy : validateRes T d with
    | ok u => exact absurd hy hv
    | exc e => exact ⟨rfl, h2⟩
    | diverge => exact ⟨rfl, h2⟩

theorem keep_exec (hr : edGetItem (cls T.flags) T.fuel flagSection (Obj.fresh (cls T.flags) ()) = (.ok d, o1))
    (hv : validateRes T d ≠ .ok ()) (op : GcOp) : Keep (GWeak d o1) (GcOp.exec T op) := by
  cases op with
  | completeConfig => exact Keep.bind (keep_complete hr) fun _ => Keep.pure _
  | validate => exact Keep.bind (fun g hg => (validate_weak hr hg hv).2) fun _ => Keep.pure _
  | configForOptions => exact Keep.bind (fun g hg => (options_weak hr hg hv).2) fun _ => Keep.pure _
  | listConfigs =>
    refine Keep.bind ?_ fun _ => Keep.pure _
    unfold GC.listConfigs
    refine Keep.bind keep_loadLE fun _ => Keep.bind (keep_onLE _) fun s => ?_
    cases s with
    | none => exact Keep.raise _
    | some s => exact Keep.pure _

/-- An operation on a sound object keeps it sound if the validation succeeds, whether or not the operation does. -/
theorem gc_exec_valid (hr : edGetItem (cls T.flags) T.fuel flagSection (Obj.fresh (cls T.flags) ()) = (.ok d, o1)) {g : GC}
    (hg : GInv T d o1 g) (hv : validateRes T d = .ok ()) (op : GcOp) :
    GInv T d o1 (GcOp.exec T op g).2 ∧ SameArgs g (GcOp.exec T op g).2 := by
  cases op with
  | configForOptions =>
    have : ∃ g', GC.configForOptions T g = (completeRes T d g.buildName g.force, g') ∧ GInv T d o1 g' ∧ SameArgs g g' := by
      unfold GC.configForOptions
      rw [M.read_bind]
      by_cases hv' : g.validated = false
      · rw [if_pos hv']
        obtain ⟨g1, h1, h2, _, h4, _⟩ := validate_step hr hg
        rw [hv] at h1; rw [M.bind_ok h1]
        obtain ⟨g2, e1, e2, e3⟩ := complete_step hr (h4 hv).1
        rw [h2.1, h2.2] at e1
        exact ⟨g2, e1, e2, ⟨e3.1.trans h2.1, e3.2.trans h2.2⟩⟩
      · rw [if_neg hv']
        exact complete_step hr hg
    obtain ⟨g', h1, h2, h3⟩ := this
    have := wrap_step h1 (fun s => GcVal.str s)
    rw [show GcOp.exec T .configForOptions g = _ from this]
    exact ⟨h2, h3⟩
  | completeConfig =>
    obtain ⟨g', h1, h2, h3⟩ := gc_exec hr hg .completeConfig
    rw [h1]; exact ⟨h3 (fun h => by cases h), h2⟩
  | listConfigs =>
    obtain ⟨g', h1, h2, h3⟩ := gc_exec hr hg .listConfigs
    rw [h1]; exact ⟨h3 (fun h => by cases h), h2⟩
  | validate =>
    obtain ⟨g', h1, h2, h3⟩ := gc_exec hr hg .validate
    rw [h1]; exact ⟨h3 (fun _ => ⟨.unit, by rw [gcRes, hv]; rfl⟩), h2⟩

theorem gc_run_valid (hr : edGetItem (cls T.flags) T.fuel flagSection (Obj.fresh (cls T.flags) ()) = (.ok d, o1))
    (hv : validateRes T d = .ok ()) (ops : List GcOp) {g : GC} (hg : GInv T d o1 g) :
    GInv T d o1 (GcOp.run T ops g) ∧ SameArgs g (GcOp.run T ops g) := by
  induction ops generalizing g with
  | nil => exact ⟨hg, rfl, rfl⟩
  | cons op ops ih =>
    obtain ⟨h1, h2⟩ := gc_exec_valid hr hg hv op
    obtain ⟨i1, i2⟩ := ih h1
    exact ⟨i1, i2.1.trans h2.1, i2.2.trans h2.2⟩

theorem gc_run_weak (hr : edGetItem (cls T.flags) T.fuel flagSection (Obj.fresh (cls T.flags) ()) = (.ok d, o1))
    (hv : validateRes T d ≠ .ok ()) (ops : List GcOp) {g : GC} (hg : GWeak d o1 g) : GWeak d o1 (GcOp.run T ops g) := by
  induction ops generalizing g with
  | nil => exact hg
  | cons op ops ih => exact ih (keep_exec hr hv op g hg)

theorem gWeak_new (b : Str) (f : Bool) : GWeak d o1 (GC.new b f) := ⟨(fun k h => by cases h), rfl⟩

end
end CPE.KW
