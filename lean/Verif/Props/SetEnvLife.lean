import Verif.Proofs.SetEnvLife
import Verif.Props.Life
/-
C70: which list of actions counts in the life of a SetEnvironment object (wip/setenvironment).
-/
namespace CPE.Props
open CPE.Spec CPE.SetEnv CPE.SetEnv.Spec

variable {st : Settings} {n : Nat} {s : Str} {fs : FS}

/-! ### where a list comes from -/

/-- C70: an operation other than an assignment to `actions` leaves the list of a section as it is, or replaces it by the
list that the configuration loaded at the end of the operation gives that section. No list disappears. -/
theorem C70_step (sys : Sys) (repr : Action → Str) (op : LOp) (ha : ¬ Assignment op) (f : Life)
    (hn : ∀ c, (op.exec sys repr st n fs f).2.full.cfg = some c → NoHookOptions (env c st)) (t : Str) :
    Dict.get? (op.exec sys repr st n fs f).2.full.obj.self t = Dict.get? f.full.obj.self t ∨
    ∃ c init l, (op.exec sys repr st n fs f).2.full.cfg = some c ∧ ListOf st c init t l ∧
      Dict.get? (op.exec sys repr st n fs f).2.full.obj.self t = some l ∧
      (init = true ∨ op = .base (.ed (.parseSection t false true))) := by
  rcases lop_updates sys repr op ha f hn with h | ⟨c, hc, h⟩
  · rw [h]; exact .inl rfl
  · rcases h t with h | ⟨i, l, h1, h2, h3⟩
    · exact .inl h
    · exact .inr ⟨c, i, l, hc, h2, h1, h3⟩

/-- C70: an assignment replaces all lists, and nothing else; a value that is no dict is a TypeError and changes
nothing. -/
theorem C70_assign (sys : Sys) (repr : Action → Str) (v : Option Actions) (f : Life) :
    (LOp.setActions v).exec sys repr st n fs f =
      match v with
      | none => (.exc .typeError, f)
      | some a => (.ok .unit, { f with full := { f.full with obj := { f.full.obj with self := a } } }) := by
  cases v <;> rfl

/-- C70 over histories: after any history of an object (files, delimiters and level assigned at any time, files changing
on disk between operations, exceptions caught), every list that the object has for a section is from the last
assignment to `actions`, or was made by a later operation from the configuration loaded then. -/
theorem C70_origin (sys : Sys) (repr : Action → Str) (environ : Environ) (h : List (FS × LOp))
    (hn : ∀ pre post c, h = pre ++ post → (LOp.run sys repr st n pre (Life.new st environ)).full.cfg = some c →
      NoHookOptions (env c st)) {t : Str} {l : List Action}
    (hl : Dict.get? (LOp.run sys repr st n h (Life.new st environ)).full.obj.self t = some l) :
    Source st (fun p => LOp.run sys repr st n p (Life.new st environ)) h t l := by
  generalize hk : h.length = k
  induction k generalizing h with
  | zero =>
    cases List.length_eq_zero_iff.1 hk
    cases hl
  | succ k ih =>
    rcases List.eq_nil_or_concat h with rfl | ⟨pre, p, hp⟩
    · cases hk
    · rw [List.concat_eq_append] at hp
      subst hp
      obtain ⟨fs, op⟩ := p
      have hpre : pre.length = k := by simpa using hk
      have hrun : LOp.run sys repr st n (pre ++ [(fs, op)]) (Life.new st environ) =
          (op.exec sys repr st n fs (LOp.run sys repr st n pre (Life.new st environ))).2 := lrun_append sys repr _ _ _
      by_cases ha : Assignment op
      · cases op with
        | setActions v =>
          cases v with
          | none => exact ha.elim
          | some a =>
            refine .assigned (post := []) rfl (by simp) ?_
            rw [hrun, C70_assign] at hl
            exact hl
        | _ => exact ha.elim
      · rw [hrun] at hl
        rcases C70_step sys repr op ha _ (fun c hc => hn (pre ++ [(fs, op)]) [] c (by simp) (by rw [hrun]; exact hc)) t with
          h1 | ⟨c, i, l', hc, h2, h1, h3⟩
        · rw [h1] at hl
          have last : ∀ {post : List (FS × LOp)}, (∀ p ∈ post, ¬ Assignment p.2) →
              ∀ p ∈ post ++ [(fs, op)], ¬ Assignment p.2 := by
            intro post hpost p hp
            rcases List.mem_append.1 hp with hp | hp
            · exact hpost p hp
            · cases List.mem_singleton.1 hp; exact ha
          rcases ih pre (fun a b c hab hc => hn a (b ++ [(fs, op)]) c (by rw [hab, List.append_assoc]) hc) hl hpre with
            ⟨e, hpost, hg⟩ | ⟨e, hop, hpost, hc, hlo, hi⟩
          · exact .assigned (by rw [e, List.append_assoc]; rfl) (last hpost) hg
          · exact .parsed (by rw [e, List.append_assoc]; rfl) hop (last hpost) hc hlo hi
        · rw [h1] at hl
          cases hl
          exact .parsed (post := []) rfl ha (by simp) (by rw [hrun]; exact hc) h2 h3

/-! ### which list `apply` performs -/

/-- C70: `apply(s)` looks the section up in the enhanced data and performs the list that the object then has for it. A
KeyError of the look-up (a section that the files do not have) is no obstacle if there is a list. Assumption as in C48:
the texts in the actions can be read back by Python from a literal in quotes. -/
theorem C70_apply (sys : Sys) (f : Life) {x : Out (EdVal Shared)} {g : Full Shared Actions}
    (hg : f.full.runOp (cls st) n fs (.getItem s) = (x, g))
    (hx : (∃ v, x = .ok v) ∨ (x = .exc .keyError ∧ g.files ≠ none)) {l : List Action}
    (hl : Dict.get? g.obj.self s = some l) {ms : List (M Environ Int)} (hp : Program sys l ms)
    (hc : ∀ a ∈ l, Clean a) :
    Life.apply sys st n fs s f =
      ((runAll (g.env (cls st) emptyCfg) ms 0 f.environ).1,
        { f with
          full := { g with obj := { g.obj with
            out := g.obj.out ++ (runAll (g.env (cls st) emptyCfg) ms 0 f.environ).2.2 } },
          environ := (runAll (g.env (cls st) emptyCfg) ms 0 f.environ).2.1 }) := by
  unfold Life.apply
  have h1 : lookForApply st n fs s f = (.ok (), { f with full := g }) := by
    unfold lookForApply
    rw [hg]
    rcases hx with ⟨v, rfl⟩ | ⟨rfl, h⟩
    · rfl
    · dsimp only; rw [if_neg h]
  rw [M.bind_ok h1, M.read_bind]
  unfold onConsole onState
  dsimp only
  have h2 : actionsOf s ⟨g.obj, f.environ, f.scripts⟩ = (.ok l, ⟨g.obj, f.environ, f.scripts⟩) := by
    unfold actionsOf
    rw [M.read_bind]
    dsimp only
    rw [hl]
    rfl
  rw [M.bind_ok h2, applyLoop_program sys _ hp hc]
  rfl

/-- C70: `apply` raises, and leaves the environment alone, if the look-up raises anything but KeyError, if it raises
KeyError and no file was ever assigned (ValueError), or if the object has no list for the section (KeyError). -/
theorem C70_apply_raises (sys : Sys) (f : Life) {x : Out (EdVal Shared)} {g : Full Shared Actions}
    (hg : f.full.runOp (cls st) n fs (.getItem s) = (x, g)) :
    (∀ e, x = .exc e → e ≠ .keyError → Life.apply sys st n fs s f = (.exc e, { f with full := g })) ∧
    (x = .exc .keyError → g.files = none → Life.apply sys st n fs s f = (.exc .valueError, { f with full := g })) ∧
    ((∃ v, x = .ok v) ∨ (x = .exc .keyError ∧ g.files ≠ none) → Dict.get? g.obj.self s = none →
      Life.apply sys st n fs s f = (.exc .keyError, { f with full := g })) := by
  refine ⟨?_, ?_, ?_⟩
  · rintro e rfl he
    unfold Life.apply
    have h1 : lookForApply st n fs s f = (.exc e, { f with full := g }) := by
      unfold lookForApply
      rw [hg]
      cases e <;> first | rfl | exact absurd rfl he
    rw [M.bind_exc h1]
  · rintro rfl h
    unfold Life.apply
    have h1 : lookForApply st n fs s f = (.exc .valueError, { f with full := g }) := by
      unfold lookForApply
      rw [hg]
      dsimp only
      rw [if_pos h]
    rw [M.bind_exc h1]
  · intro hx hl
    unfold Life.apply
    have h1 : lookForApply st n fs s f = (.ok (), { f with full := g }) := by
      unfold lookForApply
      rw [hg]
      rcases hx with ⟨v, rfl⟩ | ⟨rfl, h⟩
      · rfl
      · dsimp only; rw [if_neg h]
    rw [M.bind_ok h1, M.read_bind]
    unfold onConsole onState
    dsimp only
    have h2 : actionsOf s ⟨g.obj, f.environ, f.scripts⟩ = (.exc .keyError, ⟨g.obj, f.environ, f.scripts⟩) := by
      unfold actionsOf
      rw [M.read_bind]
      dsimp only
      rw [hl]
      rfl
    rw [M.bind_exc h2]

/-- The look-up of a section that has been looked up before, or that the configuration lacks, parses nothing. -/
theorem getItem_still (f : Full Shared Actions) {c : Cfg} {g : Full Shared Actions} (hc : f.configdata fs = (.ok c, g))
    (hk : s ∈ f.obj.checked ∨ c.hasSection s = false) :
    ∃ x, f.runOp (cls st) n fs (.getItem s) = (x, g) ∧ ((∃ v, x = .ok v) ∨ x = .exc .keyError) := by
  have look : (EdOp.getItem s).exec (f.env (cls st) c) n f.obj = (Out.map' .opts (lookup s f.obj), f.obj) := by
    change (edOptions _ n s >>= fun r => pure (EdVal.opts r)) f.obj = _
    have : edOptions (f.env (cls st) c) n s f.obj = (lookup s f.obj, f.obj) := by
      rcases hk with hk | hk
      · exact edOptions_checked hk
      · exact edOptions_missing hk
    rw [M.bind_def, this]
    cases lookup s f.obj <;> rfl
  have hlk : (∃ v, Out.map' EdVal.opts (lookup s f.obj) = (.ok v : Out (EdVal Shared))) ∨
      Out.map' EdVal.opts (lookup s f.obj) = (.exc .keyError : Out (EdVal Shared)) := by
    unfold lookup
    cases Dict.get? f.obj.data s with
    | none => exact .inr rfl
    | some d => exact .inl ⟨_, rfl⟩
  have hgo := configdata_ok hc
  refine ⟨_, ?_, hlk⟩
  rw [runOp_getItem _ _ _ hc, look, hgo.2]

/-- C70: once a section has been looked up, `apply` performs the list that the object has, whatever is on disk by now
and whatever configuration is loaded (as long as it loads). -/
theorem C70_apply_known (sys : Sys) (f : Life) {c : Cfg} {g : Full Shared Actions}
    (hc : f.full.configdata fs = (.ok c, g)) (hk : s ∈ f.full.obj.checked) (hf : f.full.files ≠ none) {l : List Action}
    (hl : Dict.get? f.full.obj.self s = some l) {ms : List (M Environ Int)} (hp : Program sys l ms)
    (hcl : ∀ a ∈ l, Clean a) :
    (Life.apply sys st n fs s f).1 = (runAll (f.env st) ms 0 f.environ).1 ∧
    (Life.apply sys st n fs s f).2.environ = (runAll (f.env st) ms 0 f.environ).2.1 ∧
    (Life.apply sys st n fs s f).2.full.obj.self = f.full.obj.self := by
  obtain ⟨x, hg, hx⟩ := getItem_still (st := st) (n := n) f.full hc (.inl hk)
  have hgo := (configdata_ok hc).2
  subst hgo
  rw [C70_apply sys f hg (hx.imp id fun h => ⟨h, hf⟩) hl hp hcl]
  exact ⟨rfl, rfl, rfl⟩

/-- C70: a list for a section that the files do not have (the client has put it into `actions`) is performed. -/
theorem C70_apply_unknown_section (sys : Sys) (f : Life) {c : Cfg} {g : Full Shared Actions}
    (hc : f.full.configdata fs = (.ok c, g)) (hk : c.hasSection s = false) (hf : f.full.files ≠ none) {l : List Action}
    (hl : Dict.get? f.full.obj.self s = some l) {ms : List (M Environ Int)} (hp : Program sys l ms)
    (hcl : ∀ a ∈ l, Clean a) :
    (Life.apply sys st n fs s f).1 = (runAll (f.env st) ms 0 f.environ).1 ∧
    (Life.apply sys st n fs s f).2.environ = (runAll (f.env st) ms 0 f.environ).2.1 ∧
    (Life.apply sys st n fs s f).2.full.obj.self = f.full.obj.self := by
  obtain ⟨x, hg, hx⟩ := getItem_still (st := st) (n := n) f.full hc (.inr hk)
  have hgo := (configdata_ok hc).2
  subst hgo
  rw [C70_apply sys f hg (hx.imp id fun h => ⟨h, hf⟩) hl hp hcl]
  exact ⟨rfl, rfl, rfl⟩

/-- C70: a section of the files that has not been looked up is parsed first, and `apply` performs the list of the file,
even if the object had another list for the section (assigned by the client, or made before the delimiters were
assigned). -/
theorem C70_apply_new (f : Life) {c : Cfg} {g₀ g : Full Shared Actions} {v : EdVal Shared}
    (hc : f.full.configdata fs = (.ok c, g₀)) (hn : NoHookOptions (env c st)) (hk : s ∉ f.full.obj.checked)
    (hs : c.hasSection s = true) (hg : f.full.runOp (cls st) n fs (.getItem s) = (.ok v, g)) :
    ∃ l, ListOf st c true s l ∧ Dict.get? g.obj.self s = some l ∧
      ∀ t, t ≠ s → Dict.get? g.obj.self t = Dict.get? f.full.obj.self t := by
  have hlook : ∀ {x : Out (EdVal Shared)} {o : Obj Shared Actions},
      (EdOp.getItem s).exec (f.full.env (cls st) c) n f.full.obj = (x, o) → x = .ok v → o = g.obj →
      ∃ l, ListOf st c true s l ∧ Dict.get? g.obj.self s = some l ∧
        ∀ t, t ≠ s → Dict.get? g.obj.self t = Dict.get? f.full.obj.self t := by
    rintro x o he rfl rfl
    change (edOptions _ n s >>= fun r => pure (EdVal.opts r)) f.full.obj = _ at he
    rw [M.bind_def, edOptions_apply (show (f.full.env (cls st) c).cfg.hasSection s = true from hs), edGet_apply,
      parseOwner_apply, if_pos (.inl hk)] at he
    cases hp : parseSection (f.full.env (cls st) c) n s true true
        { f.full.obj with checked := setAdd f.full.obj.checked s } with
    | mk y o' =>
      rw [hp] at he
      cases y with
      | ok r =>
        obtain ⟨cs, l, h1, h2, _, h4, h5⟩ := C47_actions (noHook_level f.full.level hn) hp
        dsimp only at he
        have : o' = g.obj := by
          cases hlk : lookup s o' <;> rw [hlk] at he <;> cases he
          rfl
        subst this
        exact ⟨l, listOf_level h1 h2, h4, h5⟩
      | exc e => cases he
      | diverge => cases he
  rw [runOp_getItem _ _ _ hc] at hg
  exact hlook rfl (congrArg Prod.fst hg) (congrArg (fun p => p.2.obj) hg)

/-! ### which list a script has -/

section
variable (sys : Sys) {interp : Str} {hdr sheb : Bool} (hi : interp = py!"bash" ∨ interp = py!"python")
include hi

theorem script_from {f f₁ : Life} (he : Life.ensureList st n fs s f = (.ok (), f₁)) {l : List Action} {ls : List Str}
    (hl : Dict.get? f₁.full.obj.self s = some l) (hls : CommandLines interp l ls) :
    Life.script sys st n fs s hdr true sheb interp f = (.ok (scriptText sys interp hdr sheb (some ls)), f₁) := by
  unfold Life.script
  rw [M.read_bind, if_neg (not_bad hi)]
  dsimp only
  rw [if_pos rfl, M.bind_ok he]
  have h1 : onConsole (onState (do
        let l ← actionsOf s
        onObj (liftW (bodyLines (f.env st) interp l)))) f₁ = (.ok ((ls.map (· ++ py!"\n")).flatten), f₁) := by
    unfold onConsole onState
    dsimp only
    have h2 : actionsOf s ⟨f₁.full.obj, f₁.environ, f₁.scripts⟩ = (.ok l, ⟨f₁.full.obj, f₁.environ, f₁.scripts⟩) := by
      unfold actionsOf
      rw [M.read_bind]
      dsimp only
      rw [hl]
      rfl
    rw [M.bind_ok h2]
    unfold onObj
    dsimp only
    rw [liftW_apply, bodyLines_lines _ hls]
  rw [M.bind_ok h1, ← scriptText_some]
  rfl

/-- C70: if the object has a list for the section, the script has its commands, whatever is on disk by now; no file is
read, nothing is parsed and nothing changes. -/
theorem C70_script_known (f : Life) {l : List Action} {ls : List Str} (hl : Dict.get? f.full.obj.self s = some l)
    (hls : CommandLines interp l ls) :
    Life.script sys st n fs s hdr true sheb interp f = (.ok (scriptText sys interp hdr sheb (some ls)), f) := by
  refine script_from sys hi ?_ hl hls
  unfold Life.ensureList
  rw [M.read_bind, if_neg (by rw [mem_eq_get, hl]; simp)]
  rfl

/-- C70: if it has none, the section is parsed from the files of the object first. -/
theorem C70_script_new (f : Life) {v : EdVal Shared} {g : Full Shared Actions} (h0 : Dict.get? f.full.obj.self s = none)
    (hg : f.full.runOp (cls st) n fs (.parseSection s true true) = (.ok v, g)) {l : List Action} {ls : List Str}
    (hl : Dict.get? g.obj.self s = some l) (hls : CommandLines interp l ls) :
    Life.script sys st n fs s hdr true sheb interp f =
      (.ok (scriptText sys interp hdr sheb (some ls)), { f with full := g }) := by
  refine script_from sys hi ?_ hl hls
  unfold Life.ensureList
  rw [M.read_bind, if_pos ((mem_eq_get _ _).2 h0)]
  have : onFull (Full.runOp (cls st) n fs (.parseSection s true true)) f = (.ok v, { f with full := g }) := by
    unfold onFull
    rw [hg]
  rw [M.bind_ok this]
  rfl

/-- C70: if that parse raises, so does the script. -/
theorem C70_script_raises (f : Life) {e : PyExc} {g : Full Shared Actions} (h0 : Dict.get? f.full.obj.self s = none)
    (hg : f.full.runOp (cls st) n fs (.parseSection s true true) = (.exc e, g)) :
    Life.script sys st n fs s hdr true sheb interp f = (.exc e, { f with full := g }) := by
  unfold Life.script
  rw [M.read_bind, if_neg (not_bad hi)]
  dsimp only
  have he : Life.ensureList st n fs s f = (.exc e, { f with full := g }) := by
    unfold Life.ensureList
    rw [M.read_bind, if_pos ((mem_eq_get _ _).2 h0)]
    have : onFull (Full.runOp (cls st) n fs (.parseSection s true true)) f = (.exc e, { f with full := g }) := by
      unfold onFull
      rw [hg]
    rw [M.bind_exc this]
  rw [if_pos rfl, M.bind_exc he]

end

/-! ### the three together -/

/-- C70: `pretty_print_actions(s)` looks the section up and prints the list that the object then has. -/
theorem C70_listing (repr : Action → Str) (f : Life) {v : EdVal Shared} {g : Full Shared Actions}
    (hg : f.full.runOp (cls st) n fs (.getItem s) = (.ok v, g)) {l : List Action}
    (hl : Dict.get? g.obj.self s = some l) {t : Str} (ht : Listing repr l t) :
    Life.listActions repr st n fs s f = (.ok (), { f with full := g, stdout := f.stdout ++ t }) := by
  obtain ⟨w, rows, hw, hr, rfl⟩ := ht
  cases wide_det hw (opWidth_wide l)
  unfold Life.listActions
  have h1 : onFull (Full.runOp (cls st) n fs (.getItem s)) f = (.ok v, { f with full := g }) := by
    unfold onFull
    rw [hg]
  rw [M.bind_ok h1]
  unfold onConsole
  dsimp only
  have h2 : onState (actionsOf s) ⟨⟨g.obj, f.environ, f.scripts⟩, f.stdout⟩ =
      (.ok l, ⟨⟨g.obj, f.environ, f.scripts⟩, f.stdout⟩) := by
    unfold onState actionsOf
    dsimp only
    rw [M.read_bind]
    dsimp only
    rw [hl]
    rfl
  rw [M.bind_ok h2, print_bind, print_bind, printRows_rows hr, List.append_assoc, List.append_assoc]
  rfl

/-- C70: after `apply(s)` has returned, a script has the commands of the list that was performed, whatever is on disk. -/
theorem C70_apply_then_script (sys : Sys) (f f₁ : Life) {i : Int} (h : Life.apply sys st n fs s f = (.ok i, f₁)) :
    ∃ x g l, f.full.runOp (cls st) n fs (.getItem s) = (x, g) ∧ Dict.get? g.obj.self s = some l ∧
      ∀ fs' interp hdr sheb ls, interp = py!"bash" ∨ interp = py!"python" → CommandLines interp l ls →
        Life.script sys st n fs' s hdr true sheb interp f₁ = (.ok (scriptText sys interp hdr sheb (some ls)), f₁) := by
  cases hg : f.full.runOp (cls st) n fs (.getItem s) with
  | mk x g =>
    obtain ⟨r1, r2, r3⟩ := C70_apply_raises sys f hg
    have hx : (∃ v, x = .ok v) ∨ (x = .exc .keyError ∧ g.files ≠ none) := by
      cases x with
      | ok v => exact .inl ⟨v, rfl⟩
      | exc e =>
        by_cases he : e = .keyError
        · subst he
          by_cases hf : g.files = none
          · rw [r2 rfl hf] at h; cases h
          · exact .inr ⟨rfl, hf⟩
        · rw [r1 e rfl he] at h; cases h
      | diverge =>
        unfold Life.apply at h
        have h1 : lookForApply st n fs s f = (.diverge, { f with full := g }) := by
          unfold lookForApply
          rw [hg]
        rw [M.bind_def, h1] at h
        cases h
    cases hl : Dict.get? g.obj.self s with
    | none => rw [r3 hx hl] at h; cases h
    | some l =>
      refine ⟨x, g, l, rfl, hl, fun fs' interp hdr sheb ls hi hls => C70_script_known sys hi f₁ ?_ hls⟩
      unfold Life.apply at h
      have h1 : lookForApply st n fs s f = (.ok (), { f with full := g }) := by
        unfold lookForApply
        rw [hg]
        rcases hx with ⟨v, rfl⟩ | ⟨rfl, hf⟩
        · rfl
        · dsimp only; rw [if_neg hf]
      rw [M.bind_ok h1, M.read_bind] at h
      have hcalm := calm_console (calmC_state fun P =>
        (keepsLists_actionsOf (P := P) s).bind fun l =>
          keepsLists_applyLoop (sys := sys) (E := Life.env st { f with full := g }) l 0) { f with full := g }
      rw [h] at hcalm
      rw [hcalm.1]
      exact hl

/-- C70: after a script for which the section had to be parsed, `apply(s)` performs the list of that script, whatever is
on disk. -/
theorem C70_script_then_apply (sys : Sys) (f : Life) {v : EdVal Shared} {g : Full Shared Actions} (hf : f.full.files ≠ none)
    (hg : f.full.runOp (cls st) n fs (.parseSection s true true) = (.ok v, g)) {l : List Action}
    (hl : Dict.get? g.obj.self s = some l) {ms : List (M Environ Int)} (hp : Program sys l ms)
    (hcl : ∀ a ∈ l, Clean a) (fs' : FS) :
    (Life.apply sys st n fs' s { f with full := g }).1 = (runAll (f.env st) ms 0 f.environ).1 ∧
    (Life.apply sys st n fs' s { f with full := g }).2.environ = (runAll (f.env st) ms 0 f.environ).2.1 := by
  have key : ∀ {c : Cfg} {o : Obj Shared Actions},
      (EdOp.parseSection s true true).exec (f.full.env (cls st) c) n f.full.obj = (.ok v, o) → s ∈ o.checked := by
    intro c o h
    change (parseSection _ n s true true >>= fun r => pure (EdVal.shared r)) f.full.obj = _ at h
    rw [M.bind_def] at h
    cases hq : parseSection (f.full.env (cls st) c) n s true true f.full.obj with
    | mk x o' =>
      rw [hq] at h
      cases x with
      | ok r =>
        cases h
        have := parseSection_checked (f.full.env (cls st) c) n (parseSection_ok hq).1 true true f.full.obj
        rw [hq] at this
        rw [this]
        exact (mem_setAdd _ _ _).2 (.inl rfl)
      | exc e => cases h
      | diverge => cases h
  have hg' : (∃ c, g.cfg = some c) ∧ s ∈ g.obj.checked ∧ g.files = f.full.files ∧ g.level = f.full.level := by
    unfold Full.runOp at hg
    cases hfc : f.full.cfg with
    | some c =>
      rw [hfc] at hg
      dsimp only at hg
      simp only [Prod.mk.injEq] at hg
      obtain ⟨h1, rfl⟩ := hg
      exact ⟨⟨c, rfl⟩, key (Prod.ext (missing_ok h1) rfl), rfl, rfl⟩
    | none =>
      rw [hfc] at hg
      dsimp only at hg
      cases ht : (EdOp.parseSection s true true).touch (f.full.env (cls st) emptyCfg) f.full.obj with
      | mk x o =>
        rw [ht] at hg
        cases x with
        | ok b =>
          cases b with
          | false => exact absurd (touchParse_ok _ s true ht) (by simp)
          | true =>
            dsimp only at hg
            cases hd : f.full.configdata fs with
            | mk r f' =>
              rw [hd] at hg
              cases r with
              | ok c =>
                dsimp only at hg
                simp only [Prod.mk.injEq] at hg
                obtain ⟨h1, rfl⟩ := hg
                have := (configdata_ok hd).2
                subst this
                exact ⟨⟨c, rfl⟩, key (Prod.ext h1 rfl), rfl, rfl⟩
              | exc e => cases hg
              | diverge => cases hg
        | exc e => cases hg
        | diverge => cases hg
  obtain ⟨⟨c, hc⟩, hk, hff, hlv⟩ := hg'
  have hcd : g.configdata fs' = (.ok c, g) := by
    unfold Full.configdata
    rw [hc]
  have := C70_apply_known (n := n) (st := st) sys { f with full := g } hcd hk (by rw [hff]; exact hf) hl hp hcl
  have he : Life.env st { f with full := g } = f.env st := by
    unfold Life.env Full.env
    dsimp only
    rw [hlv]
  rw [he] at this
  exact ⟨this.1, this.2.1⟩

/-- C70: when the delimiters are assigned, the object forgets its configuration and which sections were looked up, but
keeps its lists: scripts go on having the commands of the old lists, while `apply` parses the section again and performs
what the files say now. -/
theorem C70_after_delims (sys : Sys) (repr : Action → Str) (f : Life) (ds : List Str) (fs₀ : FS) {l : List Action}
    (hl : Dict.get? f.full.obj.self s = some l) :
    ∃ f₁, (LOp.base (.delims (some ds))).exec sys repr st n fs₀ f = (.ok (.base .unit), f₁) ∧
      (∀ fs interp hdr sheb ls, interp = py!"bash" ∨ interp = py!"python" → CommandLines interp l ls →
        Life.script sys st n fs s hdr true sheb interp f₁ = (.ok (scriptText sys interp hdr sheb (some ls)), f₁)) ∧
      (∀ fs c v g, (loadFiles fs f.full.files ds).1 = .ok c → NoHookOptions (env c st) → c.hasSection s = true →
        f₁.full.runOp (cls st) n fs (.getItem s) = (.ok v, g) →
        ∃ l', ListOf st c true s l' ∧ Dict.get? g.obj.self s = some l') := by
  refine ⟨_, rfl, fun fs interp hdr sheb ls hi hls => C70_script_known sys hi _ hl hls, ?_⟩
  intro fs c v g hc hn hs hg
  have hcd : Full.configdata fs { f.full with
      delims := some ds, cfg := none, obj := { f.full.obj with log := [], data := [], checked := [], lastResult := none } } =
      (.ok c, { f.full with
        delims := some ds, cfg := some c,
        obj := { f.full.obj with log := [], data := [], checked := [], lastResult := none } }) := by
    unfold Full.configdata
    change (match (loadFiles fs f.full.files ds).1 with | .ok c => Out.ok c | .error e => .exc e, _) = _
    rw [hc]
    change (_, ({ f.full with
        delims := some ds, cfg := (loadFiles fs f.full.files ds).2,
        obj := { f.full.obj with log := [], data := [], checked := [], lastResult := none } } : Full Shared Actions)) = _
    rw [loadFiles_ok hc]
  obtain ⟨l', h1, h2, _⟩ := C70_apply_new (f := { f with full := { f.full with
      delims := some ds, cfg := none, obj := { f.full.obj with log := [], data := [], checked := [], lastResult := none } } })
    hcd hn (by simp) hs hg
  exact ⟨l', h1, h2⟩

/-- C70: when other files are assigned, a section that was looked up before keeps its list, whatever the new files say
about it: `apply` performs the old actions (as long as the new files load) and scripts have the old commands. -/
theorem C70_after_files (sys : Sys) (repr : Action → Str) (f : Life) (v : PathArg) (fs₀ : FS) {l : List Action}
    (hl : Dict.get? f.full.obj.self s = some l) (hk : s ∈ f.full.obj.checked) (hf : f.full.files ≠ none) :
    ∃ x f₁, (LOp.base (.files v)).exec sys repr st n fs₀ f = (x, f₁) ∧
      (∀ fs interp hdr sheb ls, interp = py!"bash" ∨ interp = py!"python" → CommandLines interp l ls →
        Life.script sys st n fs s hdr true sheb interp f₁ = (.ok (scriptText sys interp hdr sheb (some ls)), f₁)) ∧
      (∀ fs c g ms, f₁.full.configdata fs = (.ok c, g) → Program sys l ms → (∀ a ∈ l, Clean a) →
        (Life.apply sys st n fs s f₁).1 = (runAll (f.env st) ms 0 f.environ).1 ∧
        (Life.apply sys st n fs s f₁).2.environ = (runAll (f.env st) ms 0 f.environ).2.1) := by
  have key : ∃ x f₁, (LOp.base (.files v)).exec sys repr st n fs₀ f = (x, f₁) ∧ f₁.full.obj.self = f.full.obj.self ∧
      f₁.full.obj.checked = f.full.obj.checked ∧ f₁.full.files ≠ none ∧ f₁.full.level = f.full.level ∧
      f₁.environ = f.environ := by
    have assign : ∀ entries, (f.full.assignFiles entries).2.obj.self = f.full.obj.self ∧
        (f.full.assignFiles entries).2.obj.checked = f.full.obj.checked ∧ (f.full.assignFiles entries).2.files ≠ none ∧
        (f.full.assignFiles entries).2.level = f.full.level := by
      intro entries
      unfold Full.assignFiles
      dsimp only
      split <;> exact ⟨rfl, rfl, by simp, rfl⟩
    have go : ∀ (x : Out (FVal Shared)) (g : Full Shared Actions), g.obj.self = f.full.obj.self →
        g.obj.checked = f.full.obj.checked → g.files ≠ none → g.level = f.full.level →
        (FOp.files v).exec (cls st) n fs₀ f.full = (x, g) →
        ∃ x f₁, (LOp.base (.files v)).exec sys repr st n fs₀ f = (x, f₁) ∧ f₁.full.obj.self = f.full.obj.self ∧
          f₁.full.obj.checked = f.full.obj.checked ∧ f₁.full.files ≠ none ∧ f₁.full.level = f.full.level ∧
          f₁.environ = f.environ := by
      intro x g h1 h2 h3 h4 he
      change ∃ x f₁, (onFull ((FOp.files v).exec (cls st) n fs₀) >>= fun w => pure (LVal.base w)) f = (x, f₁) ∧ _
      rw [M.bind_def]
      unfold onFull
      rw [he]
      cases x <;> exact ⟨_, _, rfl, h1, h2, h3, h4, rfl⟩
    cases v with
    | badType => exact go _ _ rfl rfl hf rfl rfl
    | one p => exact go _ _ (assign _).1 (assign _).2.1 (assign _).2.2.1 (assign _).2.2.2 rfl
    | many ps => exact go _ _ (assign _).1 (assign _).2.1 (assign _).2.2.1 (assign _).2.2.2 rfl
  obtain ⟨x, f₁, h0, h1, h2, h3, h4, h5⟩ := key
  refine ⟨x, f₁, h0, fun fs interp hdr sheb ls hi hls => C70_script_known sys hi _ (by rw [h1]; exact hl) hls, ?_⟩
  intro fs c g ms hc hp hcl
  have := C70_apply_known (n := n) (st := st) sys f₁ hc (by rw [h2]; exact hk) h3 (by rw [h1]; exact hl) hp hcl
  have he : f₁.env st = f.env st := by
    unfold Life.env Full.env
    rw [h4]
  rw [he, h5] at this
  exact ⟨this.1, this.2.1⟩

theorem applyLoop_cfg (sys : Sys) (c c' : Cfg) (st : Settings) (l : List Action) (acc : Int) :
    applyLoop sys (env c st) l acc = applyLoop sys (env c' st) l acc := by
  induction l generalizing acc with
  | nil => rfl
  | cons a l ih =>
    unfold applyLoop
    have : applyAction sys (env c st) a = applyAction sys (env c' st) a := by cases a <;> rfl
    rw [this]
    exact congrArg _ (funext fun r => ih _)

theorem bodyLines_cfg (c c' : Cfg) (st : Settings) (interp : Str) (l : List Action) :
    bodyLines (env c st) interp l = bodyLines (env c' st) interp l := by
  induction l with
  | nil => rfl
  | cons a l ih =>
    unfold bodyLines
    have : genAction (env c st) interp a = genAction (env c' st) interp a := by cases a <;> rfl
    rw [this, ih]

theorem onState_bind {α β : Type} (m : M State α) (g : α → M State β) :
    onState (m >>= g) = onState m >>= fun a => onState (g a) := by
  funext f
  unfold onState
  rw [M.bind_def, M.bind_def]
  cases m f.st with
  | mk x w => cases x <;> rfl

theorem onConsole_bind {α β : Type} (m : M Console α) (g : α → M Console β) :
    onConsole (m >>= g) = onConsole m >>= fun a => onConsole (g a) := by
  funext f
  unfold onConsole
  rw [M.bind_def, M.bind_def]
  cases m ⟨⟨f.full.obj, f.environ, f.scripts⟩, f.stdout⟩ with
  | mk x w => cases x <;> rfl

/-- Code of the object, run in its life. -/
def inLife {α : Type} (m : M (Obj Shared Actions) α) : M Life α := onConsole (onState (onObj m))

theorem inLife_apply {α : Type} (m : M (Obj Shared Actions) α) (f : Life) :
    inLife m f = ((m f.full.obj).1, { f with full := { f.full with obj := (m f.full.obj).2 } }) := rfl

/-- C70: once the files are loaded, the operations are those of C47 to C49 and C68 on the loaded configuration: those
properties describe this object until its files or delimiters are assigned again. -/
theorem C70_loaded (sys : Sys) (repr : Action → Str) (f : Life) {c : Cfg} (hc : f.full.cfg = some c)
    (hf : f.full.files ≠ none) :
    Life.apply sys st n fs s f =
      onConsole (onState (SetEnv.apply sys (env c { st with level := f.full.level }) n s)) f ∧
    Life.listActions repr st n fs s f =
      onConsole (prettyActions repr (env c { st with level := f.full.level }) n s) f ∧
    ∀ hdr body sheb interp, Life.script sys st n fs s hdr body sheb interp f =
      onConsole (onState (generateScript sys (env c { st with level := f.full.level }) n s hdr body sheb interp)) f := by
  have hrun : ∀ op : EdOp, f.full.runOp (cls st) n fs op =
      ((op.exec (env c { st with level := f.full.level }) n f.full.obj).1,
        { f.full with obj := (op.exec (env c { st with level := f.full.level }) n f.full.obj).2 }) := by
    intro op
    unfold Full.runOp
    rw [hc]
    dsimp only
    rw [missing_files _ _ _ hf, full_env, hc]
  generalize hE : env c { st with level := f.full.level } = E at hrun ⊢
  have hget : ∀ x o, edGetItem E n s f.full.obj = (x, o) →
      (EdOp.getItem s).exec E n f.full.obj = (Out.map' .opts x, o) := by
    intro x o h
    change (edGetItem E n s >>= fun r => pure (EdVal.opts r)) f.full.obj = _
    rw [M.bind_def, h]
    cases x <;> rfl
  refine ⟨?_, ?_, ?_⟩
  · unfold Life.apply SetEnv.apply
    rw [onState_bind, onConsole_bind, M.bind_def, M.bind_def]
    have hlook : lookForApply st n fs s f = inLife (ignoreKeyError (edGetItem E n s)) f := by
      rw [inLife_apply]
      unfold lookForApply ignoreKeyError
      rw [hrun]
      cases hg : edGetItem E n s f.full.obj with
      | mk x o =>
        rw [hget x o hg]
        cases x with
        | ok v => rfl
        | exc e =>
          cases e with
          | keyError => dsimp only [Out.map']; rw [if_neg hf]
          | _ => rfl
        | diverge => rfl
    rw [hlook]
    rw [show onConsole (onState (onObj (ignoreKeyError (edGetItem E n s)))) = inLife (ignoreKeyError (edGetItem E n s))
      from rfl, inLife_apply]
    generalize (ignoreKeyError (edGetItem E n s) f.full.obj) = y
    obtain ⟨y, o⟩ := y
    cases y with
    | ok v =>
      dsimp only
      rw [M.read_bind]
      have loop : ∀ l, applyLoop sys (Life.env st { f with full := { f.full with obj := o } }) l 0 = applyLoop sys E l 0 := by
        intro l
        rw [← hE]
        exact applyLoop_cfg sys emptyCfg c { st with level := f.full.level } l 0
      simp only [loop]
    | exc e => rfl
    | diverge => rfl
  · unfold Life.listActions prettyActions
    rw [onConsole_bind (onState (onObj (edGetItem E n s))), M.bind_def, M.bind_def]
    rw [show onConsole (onState (onObj (edGetItem E n s))) = inLife (edGetItem E n s) from rfl, inLife_apply]
    unfold onFull
    rw [hrun]
    cases hg : edGetItem E n s f.full.obj with
    | mk x o =>
      rw [hget x o hg]
      cases x <;> rfl
  · intro hdr body sheb interp
    unfold Life.script generateScript
    rw [M.read_bind]
    have lines : ∀ l, bodyLines (f.env st) interp l = bodyLines E interp l := by
      intro l
      rw [← hE]
      exact bodyLines_cfg emptyCfg c { st with level := f.full.level } interp l
    by_cases hb : interp ≠ py!"bash" ∧ interp ≠ py!"python"
    · rw [if_pos hb, if_pos hb, onState_bind, onConsole_bind, ← hE]
      rfl
    · rw [if_neg hb, if_neg hb]
      dsimp only
      by_cases hbody : body = true
      · rw [if_pos hbody, if_pos hbody]
        simp only [lines]
        have rest : ∀ (top : Str) (g : Life), (onConsole (onState (do
              let l ← actionsOf s
              onObj (liftW (bodyLines E interp l)))) >>= fun lines => pure (top ++ bodyHeader ++ lines ++ py!"\n\n") :
              M Life Str) g =
            onConsole (onState (do
              let l ← actionsOf s
              let lines ← onObj (liftW (bodyLines E interp l))
              pure (top ++ bodyHeader ++ lines ++ py!"\n\n"))) g := by
          intro top g
          rw [onState_bind, onConsole_bind, onState_bind, onConsole_bind, M.bind_def, M.bind_def, M.bind_def]
          cases onConsole (onState (actionsOf s)) g with
          | mk x g =>
            cases x with
            | ok l =>
              dsimp only
              rw [onState_bind, onConsole_bind, M.bind_def]
              cases onConsole (onState (onObj (liftW (bodyLines E interp l)))) g with
              | mk x g => cases x <;> rfl
            | exc e => rfl
            | diverge => rfl
        rw [M.bind_def]
        change _ = onConsole (onState (if Dict.mem f.full.obj.self s = false then _ else _)) f
        unfold Life.ensureList
        rw [M.read_bind]
        by_cases hm : Dict.mem f.full.obj.self s = false
        · rw [if_pos hm, if_pos hm, onState_bind (onObj (parseSection E n s true true)),
            onConsole_bind (onState (onObj (parseSection E n s true true))), M.bind_def, M.bind_def,
            show onConsole (onState (onObj (parseSection E n s true true))) = inLife (parseSection E n s true true)
              from rfl, inLife_apply]
          unfold onFull
          rw [hrun]
          have hx : (EdOp.parseSection s true true).exec E n f.full.obj =
            (parseSection E n s true true >>= fun r => pure (EdVal.shared r)) f.full.obj := rfl
          rw [hx, M.bind_def]
          cases parseSection E n s true true f.full.obj with
          | mk x o =>
            cases x with
            | ok v => exact rest _ _
            | exc e => rfl
            | diverge => rfl
        · rw [if_neg hm, if_neg hm]
          exact rest _ _
      · rw [if_neg hbody, if_neg hbody]
        rfl

/-- C70: writing a script puts the text that would be generated into the file, or, if generating raises, leaves every
file alone. -/
theorem C70_write (sys : Sys) (f : Life) (file s : Str) (hdr body sheb : Bool) {interp : Str}
    (hi : interp = py!"bash" ∨ interp = py!"python") :
    (∀ t g, Life.script sys st n fs s hdr body sheb interp f = (.ok t, g) →
      Life.write sys st n fs file s hdr body sheb interp f =
        (.ok 0, { g with scripts := Dict.set g.scripts file t })) ∧
    (∀ e g, Life.script sys st n fs s hdr body sheb interp f = (.exc e, g) →
      Life.write sys st n fs file s hdr body sheb interp f = (.exc e, g)) := by
  have hn : ¬ (interp ≠ py!"bash" ∧ interp ≠ py!"python") := fun h => hi.elim h.1 h.2
  constructor
  · intro t g h
    unfold Life.write
    rw [M.read_bind, if_neg hn, M.bind_ok h]
    rfl
  · intro e g h
    unfold Life.write
    rw [M.read_bind, if_neg hn, M.bind_exc h]

/-- C70: what a client asks for is what is done; asking for the lists changes nothing. -/
theorem C70_operations (sys : Sys) (repr : Action → Str) (f : Life) :
    LOp.actions.exec sys repr st n fs f = (.ok (.actions f.full.obj.self), f) ∧
    (∀ s, ((LOp.apply s).exec sys repr st n fs f).2 = (Life.apply sys st n fs s f).2 ∧
      ∀ v, ((LOp.apply s).exec sys repr st n fs f).1 = .ok v ↔
        ∃ i, (Life.apply sys st n fs s f).1 = .ok i ∧ v = .int i) ∧
    (∀ s hdr body sheb interp,
      ((LOp.script s hdr body sheb interp).exec sys repr st n fs f).2 =
        (Life.script sys st n fs s hdr body sheb interp f).2 ∧
      ∀ v, ((LOp.script s hdr body sheb interp).exec sys repr st n fs f).1 = .ok v ↔
        ∃ t, (Life.script sys st n fs s hdr body sheb interp f).1 = .ok t ∧ v = .text t) := by
  refine ⟨rfl, fun s => ?_, fun s hdr body sheb interp => ?_⟩
  · simp only [LOp.exec, M.bind_def]
    rcases Life.apply sys st n fs s f with ⟨x, g⟩
    cases x
    · exact ⟨rfl, fun v => ⟨fun h => ⟨_, rfl, by cases h; rfl⟩, fun ⟨i, h, hv⟩ => by cases h; cases hv; rfl⟩⟩
    · exact ⟨rfl, fun v => ⟨fun h => (by cases h), fun ⟨i, h, hv⟩ => (by cases h)⟩⟩
    · exact ⟨rfl, fun v => ⟨fun h => (by cases h), fun ⟨i, h, hv⟩ => (by cases h)⟩⟩
  · simp only [LOp.exec, M.bind_def]
    rcases Life.script sys st n fs s hdr body sheb interp f with ⟨x, g⟩
    cases x
    · exact ⟨rfl, fun v => ⟨fun h => ⟨_, rfl, by cases h; rfl⟩, fun ⟨i, h, hv⟩ => by cases h; cases hv; rfl⟩⟩
    · exact ⟨rfl, fun v => ⟨fun h => (by cases h), fun ⟨i, h, hv⟩ => (by cases h)⟩⟩
    · exact ⟨rfl, fun v => ⟨fun h => (by cases h), fun ⟨i, h, hv⟩ => (by cases h)⟩⟩

/-! ### a life -/

/-- What is on disk first. -/
def lifeDisk₁ : FS := fun p =>
  if p = py!"a.ini" then .file py!"[S]\nenvvar-set A : 1\n" else .absent

/-- What is on disk later. -/
def lifeDisk₂ : FS := fun p =>
  if p = py!"a.ini" then .file py!"[S]\nenvvar-set A : 2\n"
  else if p = py!"b.ini" then .file py!"[T]\nenvvar-set B : 3\n" else .absent

/-- The lists of the examples. -/
def lifeList (v : Str) : List Action := [.envvar py!"envvar_set" py!"A" (some v)]

/-- `apply` before anything changes. -/
def lifeBegin : List (FS × LOp) :=
  [(lifeDisk₁, .base (.files (.one py!"a.ini"))), (lifeDisk₁, .apply py!"S")]

/-- The hypotheses of C70 are met: the list made at first survives a change of the file; after an assignment of the
delimiters the script has the old command, `apply` performs the new one, and then the script has it too. -/
example :
    (LOp.run exampleSys (fun _ => []) {} 9 (lifeBegin ++ [(lifeDisk₂, .apply py!"S")]) (Life.new {} [])).environ = [(py!"A", py!"1")] ∧
    ((LOp.script py!"S" false true false py!"bash").exec exampleSys (fun _ => []) {} 9 lifeDisk₂
      (LOp.run exampleSys (fun _ => []) {} 9 (lifeBegin ++ [(lifeDisk₂, .base (.delims (some [py!":"])))]) (Life.new {} []))).1 =
      .ok (.text (bodyHeader ++ py!"envvar_op set \"A\" \"1\"\n\n\n")) ∧
    (LOp.run exampleSys (fun _ => []) {} 9 (lifeBegin ++ [(lifeDisk₂, .base (.delims (some [py!":"]))), (lifeDisk₂, .apply py!"S")])
      (Life.new {} [])).environ = [(py!"A", py!"2")] := by
  refine ⟨?_, ?_, ?_⟩ <;> decide +kernel

/-- Other files that do not have the section: the old list goes on being performed. An assigned list is used by scripts
at once, but overwritten by `apply` if the section has not been looked up. -/
example :
    (LOp.run exampleSys (fun _ => []) {} 9 (lifeBegin ++ [(lifeDisk₂, .base (.files (.one py!"b.ini"))),
      (lifeDisk₂, .listVars .none (some false)), (lifeDisk₂, .apply py!"S")]) (Life.new {} [])).environ =
      [(py!"A", py!"1")] ∧
    ((LOp.script py!"S" false true false py!"bash").exec exampleSys (fun _ => []) {} 9 lifeDisk₁
      (LOp.run exampleSys (fun _ => []) {} 9 [(lifeDisk₁, .base (.files (.one py!"a.ini"))),
        (lifeDisk₁, .setActions (some [(py!"S", lifeList py!"9")]))] (Life.new {} []))).1 =
      .ok (.text (bodyHeader ++ py!"envvar_op set \"A\" \"9\"\n\n\n")) ∧
    (LOp.run exampleSys (fun _ => []) {} 9 [(lifeDisk₁, .base (.files (.one py!"a.ini"))),
      (lifeDisk₁, .setActions (some [(py!"S", lifeList py!"9"), (py!"U", lifeList py!"8")])),
      (lifeDisk₁, .apply py!"S")] (Life.new {} [])).environ = [(py!"A", py!"1")] ∧
    (LOp.run exampleSys (fun _ => []) {} 9 [(lifeDisk₁, .base (.files (.one py!"a.ini"))),
      (lifeDisk₁, .setActions (some [(py!"S", lifeList py!"9"), (py!"U", lifeList py!"8")])),
      (lifeDisk₁, .apply py!"U")] (Life.new {} [])).environ = [(py!"A", py!"8")] := by
  refine ⟨?_, ?_, ?_, ?_⟩ <;> decide +kernel

/-- No file was ever assigned: `apply` of an assigned list is a ValueError. -/
example :
    ((LOp.apply py!"S").exec exampleSys (fun _ => []) {} 9 lifeDisk₁ (LOp.run exampleSys (fun _ => []) {} 9
      [(lifeDisk₁, .setActions (some [(py!"S", lifeList py!"9")])), (lifeDisk₁, .apply py!"S")] (Life.new {} []))).1 =
      .exc .valueError := by
  decide +kernel

/-! ### The exception level -/

/-- The level that an operation assigns, limited to 0..5. -/
def assignedLevel : LOp → Option Int
  | .base (.level i) => some (if i < 0 then 0 else if 5 < i then 5 else i)
  | _ => none

/-- C70: the operations of this class leave the exception level as it is; those of the base class change it as C28
says. -/
theorem C70_level_step (sys : Sys) (repr : Action → Str) (op : LOp) (f : Life) :
    ((∀ b, op ≠ .base b) → (op.exec sys repr st n fs f).2.full.level = f.full.level) ∧
    ∀ b, op = .base b →
      ((op.exec sys repr st n fs f).2.full.level : Int) = levelNext f.full.level b (b.exec (cls st) n fs f.full).1 := by
  have hrun : ∀ (g : Full Shared Actions) (o : EdOp), (g.runOp (cls st) n fs o).2.level = g.level := by
    intro g o
    have h : (((FOp.ed o).exec (cls st) n fs g).2.level : Int) = g.level := C28_level_step g fs (.ed o)
    exact Int.ofNat.inj h
  have hcon : ∀ {α : Type} (m : M Console α) (f : Life), (onConsole m f).2.full.level = f.full.level := fun m f => rfl
  have hbind : ∀ {α β : Type} (m : M Life α) (k : α → M Life β), (∀ f, (m f).2.full.level = f.full.level) →
      (∀ a f, (k a f).2.full.level = f.full.level) → ∀ f, ((m >>= k) f).2.full.level = f.full.level := by
    intro α β m k hm hk f
    rw [M.bind_def]
    have := hm f
    generalize m f = x at this ⊢
    obtain ⟨r, w⟩ := x
    cases r with
    | ok a => exact (hk a w).trans this
    | exc e => exact this
    | diverge => exact this
  have hfull : ∀ (o : EdOp) (f : Life), (onFull (Full.runOp (cls st) n fs o) f).2.full.level = f.full.level :=
    fun o f => hrun f.full o
  have hread : ∀ f : Life, ((M.read : M Life Life) f).2.full.level = f.full.level := fun _ => rfl
  have hpure : ∀ {α : Type} (a : α) (f : Life), ((pure a : M Life α) f).2.full.level = f.full.level := fun _ _ => rfl
  have hlook : ∀ s f, (lookForApply st n fs s f).2.full.level = f.full.level := by
    intro s f
    have := hrun f.full (.getItem s)
    unfold lookForApply
    generalize f.full.runOp (cls st) n fs (.getItem s) = x at this ⊢
    obtain ⟨r, w⟩ := x
    cases r with
    | ok a => exact this
    | diverge => exact this
    | exc e => cases e <;> exact this
  have hensure : ∀ s f, (Life.ensureList st n fs s f).2.full.level = f.full.level := by
    intro s f
    unfold Life.ensureList
    refine hbind _ _ hread (fun a f => ?_) f
    split
    · exact hbind _ _ (hfull _) (fun _ => hpure _) f
    · rfl
  have hscript : ∀ s hdr body sheb interp f, (Life.script sys st n fs s hdr body sheb interp f).2.full.level = f.full.level := by
    intro s hdr body sheb interp f
    unfold Life.script
    refine hbind _ _ hread (fun a f => ?_) f
    split
    · exact hbind _ _ (hcon _) (fun _ => hpure _) f
    · dsimp only
      split
      · exact hbind _ _ (hensure s) (fun _ => hbind _ _ (hcon _) (fun _ => hpure _)) f
      · rfl
  have happly : ∀ s f, (Life.apply sys st n fs s f).2.full.level = f.full.level := by
    intro s f
    unfold Life.apply
    exact hbind _ _ (hlook s) (fun _ => hbind _ _ hread (fun _ => hcon _)) f
  have hlist : ∀ s f, (Life.listActions repr st n fs s f).2.full.level = f.full.level := by
    intro s f
    unfold Life.listActions
    exact hbind _ _ (hfull _) (fun _ => hcon _) f
  have hwrite : ∀ file s hdr body sheb interp f,
      (Life.write sys st n fs file s hdr body sheb interp f).2.full.level = f.full.level := by
    intro file s hdr body sheb interp f
    unfold Life.write
    refine hbind _ _ hread (fun a f => ?_) f
    split
    · exact hbind _ _ (hcon _) (fun _ => hpure _) f
    · exact hbind _ _ (hscript _ _ _ _ _) (fun _ => hbind _ _ (fun _ => rfl) (fun _ => hpure _)) f
  refine ⟨fun hb => ?_, ?_⟩
  · cases op with
    | base b => exact absurd rfl (hb b)
    | actions => rfl
    | setActions v => cases v <;> rfl
    | apply s => exact hbind _ _ (happly s) (fun _ => hpure _) f
    | listActions s => exact hbind _ _ (hlist s) (fun _ => hpure _) f
    | listVars a b => exact hbind _ _ (hcon _) (fun _ => hpure _) f
    | script s hdr body sheb interp => exact hbind _ _ (hscript _ _ _ _ _) (fun _ => hpure _) f
    | write file s hdr body sheb interp => exact hbind _ _ (hwrite _ _ _ _ _ _) (fun _ => hpure _) f
  · rintro b rfl
    rw [← C28_level_step]
    show (((onFull (b.exec (cls st) n fs) >>= fun v => pure (LVal.base v)) f).2.full.level : Int) = _
    rw [M.bind_def]
    unfold onFull
    generalize b.exec (cls st) n fs f.full = x
    obtain ⟨r, w⟩ := x
    cases r <;> rfl

/-- C70: a new object has no file, no configuration, no lists, and the level it is given; after any history in which
`unroll_to_str` was not called with `use_base_class_parser=False`, the level is the one last assigned, or that one. -/
theorem C70_level (sys : Sys) (repr : Action → Str) (environ : Environ) (h : List (FS × LOp))
    (hu : ∀ p ∈ h, ∀ sec space, p.2 ≠ .base (.unroll sec space false)) :
    (Life.new st environ).full.files = none ∧ (Life.new st environ).full.cfg = none ∧
    (Life.new st environ).full.obj.self = [] ∧ (Life.new st environ).environ = environ ∧
    ((LOp.run sys repr st n h (Life.new st environ)).full.level : Int) =
      ((h.map Prod.snd).reverse.findSome? assignedLevel).getD st.level := by
  refine ⟨rfl, rfl, rfl, rfl, ?_⟩
  have key : ∀ (h : List (FS × LOp)) (f : Life), (∀ p ∈ h, ∀ sec space, p.2 ≠ .base (.unroll sec space false)) →
      ((LOp.run sys repr st n h f).full.level : Int) =
        ((h.map Prod.snd).reverse.findSome? assignedLevel).getD f.full.level := by
    intro h
    induction h with
    | nil => intro f _; rfl
    | cons p h ih =>
      obtain ⟨fs, op⟩ := p
      intro f hu
      show ((LOp.run sys repr st n h (op.exec sys repr st n fs f).2).full.level : Int) = _
      rw [ih _ (fun p hp => hu p (List.mem_cons_of_mem _ hp)), List.map_cons, List.reverse_cons, List.findSome?_append]
      have hstep : ((op.exec sys repr st n fs f).2.full.level : Int) = (assignedLevel op).getD f.full.level := by
        obtain ⟨h1, h2⟩ := C70_level_step (st := st) (n := n) (fs := fs) sys repr op f
        cases op with
        | base b =>
          rw [h2 b rfl]
          cases b with
          | unroll sec space base =>
            cases base with
            | false => exact absurd rfl (hu _ (List.mem_cons_self ..) sec space)
            | true => rfl
          | _ => rfl
        | _ => exact congrArg Int.ofNat (h1 (fun _ h => by cases h))
      rw [hstep]
      cases (h.map Prod.snd).reverse.findSome? assignedLevel with
      | some i => rfl
      | none => simp
  exact key h _ hu

/-- Three operations, one of which assigns a level that is out of range. -/
example : ((LOp.run exampleSys (fun _ => []) { level := 2 } 9
    [(lifeDisk₁, .base (.level 9)), (lifeDisk₁, .actions), (lifeDisk₁, .apply py!"A")] (Life.new { level := 2 } [])).full.level) = 5 ∧
    (Life.new { level := 2 } []).full.level = 2 := by decide +kernel

end CPE.Props
