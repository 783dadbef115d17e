import Verif.Proofs.Base
import Verif.Spec.Unroll
/-
The parser refines replay of the unrolled file.
-/
namespace CPE
open Spec
variable {δ ω : Type}

/-- outcome carrying a value -/
def outcomeV {α : Type} (a : α) : Option PyExc → Out α
  | none => .ok a
  | some e => .exc e

/-- `m` behaves, on the observable part of the world, as the replay of `evs`, returns `a`, and leaves
`processed_sections` as it was (up to order). -/
def Sim {α : Type} (E : Env δ ω) (root : Str) (path : List Str) (m : M (World δ ω) α) (a : α)
    (evs : List (Ev δ ω)) : Prop :=
  ∀ w : World δ ω, (∀ x, x ∈ w.processed ↔ x ∈ path) →
    (m w).1 = outcomeV a (replay E root evs w.toCore).1 ∧
    (m w).2.toCore = (replay E root evs w.toCore).2 ∧
    ((m w).1 = .ok a → ∀ x, x ∈ (m w).2.processed ↔ x ∈ path)

theorem replay_append (E : Env δ ω) (root : Str) (a b : List (Ev δ ω)) (c : Core δ ω) :
    replay E root (a ++ b) c =
      match replay E root a c with
      | (none, c') => replay E root b c'
      | (some e, c') => (some e, c') := by
  induction a generalizing c with
  | nil => rfl
  | cons ev a ih =>
    simp only [List.cons_append, replay]
    cases h : evStep E root ev c with
    | mk o c' => cases o with
      | none => simp [ih]
      | some e => rfl

theorem Sim.bind {α β : Type} {E : Env δ ω} {root : Str} {path : List Str} {m : M (World δ ω) α} {a : α}
    {f : α → M (World δ ω) β} {b : β} {evs evs' : List (Ev δ ω)}
    (h : Sim E root path m a evs) (h' : Sim E root path (f a) b evs') :
    Sim E root path (m >>= f) b (evs ++ evs') := by
  intro w hw
  obtain ⟨h1, h2, h3⟩ := h w hw
  rw [M.bind_def, replay_append]
  cases hm : m w with
  | mk o w' =>
    rw [hm] at h1 h2 h3
    cases hr : replay E root evs w.toCore with
    | mk r c =>
      rw [hr] at h1 h2
      cases r with
      | none =>
        simp only [outcomeV] at h1 h2 h3
        subst h1
        have := h' w' (h3 rfl)
        rw [h2] at this
        simpa using this
      | some e =>
        simp only [outcomeV] at h1 h2
        subst h1
        simp [outcomeV, h2]

theorem Sim.pure' {α : Type} {E : Env δ ω} {root : Str} {path : List Str} (a : α) :
    Sim E root path (pure a) a [] := by
  intro w hw
  exact ⟨rfl, rfl, fun _ => hw⟩

theorem Sim.congr {α : Type} {E : Env δ ω} {root : Str} {path : List Str} {m m' : M (World δ ω) α} {a : α}
    {evs evs' : List (Ev δ ω)} (h : Sim E root path m a evs) (hm : m' = m) (he : evs' = evs) :
    Sim E root path m' a evs' := by subst hm he; exact h

theorem Sim.log {E : Env δ ω} {root : Str} {path : List Str} (l : LogEntry) :
    Sim E root path (logAdd E l) () [] := by
  intro w hw
  unfold logAdd
  simp only [M.modify_apply, replay, outcomeV, true_and]
  split <;> exact ⟨rfl, fun _ => hw⟩

theorem Sim.raise' {α : Type} {E : Env δ ω} {root : Str} {path : List Str} (e : PyExc) (a : α) :
    Sim E root path (M.raise e) a [.fail e] := by
  intro w _
  exact ⟨rfl, rfl, fun h => by cases h⟩

theorem fireEvent_eq (level : Nat) (silent compact : Bool) (ev : Event) (e : PyExc) (hs : ev ≠ .silent) :
    fireEvent level silent compact ev e =
      if ev.levelReq ≤ level then (.exc e, [])
      else if 0 < level ∧ silent = false then (.ok (), [⟨ev, e, compact⟩]) else (.ok (), []) := by
  unfold fireEvent
  simp only [ge_iff_le, gt_iff_lt]
  split
  · rfl
  · by_cases h : 0 < level
    · simp [h, hs]
    · simp [h]

theorem ecEvent_apply (E : Env δ ω) (ev : Event) (e : PyExc) (hs : ev ≠ .silent) (w : World δ ω) :
    (ecEvent E ev e w).1 = outcomeV () (notify E ev ev.levelReq e w.toCore).1 ∧
    (ecEvent E ev e w).2.toCore = (notify E ev ev.levelReq e w.toCore).2 ∧
    (ecEvent E ev e w).2.processed = w.processed ∧ (ecEvent E ev e w).2.log = w.log := by
  unfold ecEvent notify
  rw [fireEvent_eq _ _ _ _ _ hs]
  by_cases h1 : ev.levelReq ≤ E.level
  · simp [h1, outcomeV]
  · by_cases h2 : 0 < E.level ∧ E.silentWarnings = false
    · simp [h1, h2, outcomeV]
    · simp [h1, h2, outcomeV]

theorem Sim.cycle {E : Env δ ω} {root : Str} {path : List Str} (s t : Str) :
    Sim E root path (ecEvent E .warning .valueError) () [.cycle s t] := by
  intro w hw
  obtain ⟨h1, h2, h3, _⟩ := ecEvent_apply E .warning .valueError (by decide) w
  have hr : replay E root [.cycle s t] w.toCore = notify E .warning 5 .valueError w.toCore := by
    simp only [replay, evStep]
    cases notify E .warning 5 .valueError w.toCore with
    | mk o c => cases o <;> rfl
  rw [hr]
  exact ⟨h1, h2, fun _ => by rw [h3]; exact hw⟩

theorem Sim.ambiguous {E : Env δ ω} {root : Str} {path : List Str} (op : Str) :
    Sim E root path (ecEvent E .serious .ambiguousHandler) () [.ambiguous op] := by
  intro w hw
  obtain ⟨h1, h2, h3, _⟩ := ecEvent_apply E .serious .ambiguousHandler (by decide) w
  have hr : replay E root [.ambiguous op] w.toCore = notify E .serious 3 .ambiguousHandler w.toCore := by
    simp only [replay, evStep]
    cases notify E .serious 3 .ambiguousHandler w.toCore with
    | mk o c => cases o <;> rfl
  rw [hr]
  exact ⟨h1, h2, fun _ => by rw [h3]; exact hw⟩

theorem checkRval_apply (E : Env δ ω) (r : Ret) (w : World δ ω) :
    (checkRval E r w).1 = outcomeV () (onReturn E r w.toCore).1 ∧
    (checkRval E r w).2.toCore = (onReturn E r w.toCore).2 ∧
    (checkRval E r w).2.processed = w.processed ∧ (checkRval E r w).2.log = w.log := by
  cases r with
  | notInt => exact ⟨rfl, rfl, rfl, rfl⟩
  | int i =>
    unfold checkRval onReturn
    by_cases h0 : i = 0
    · subst h0; exact ⟨rfl, rfl, rfl, rfl⟩
    · by_cases h1 : i ≤ 10
      · have h2 : ¬ i > 10 := by omega
        simp only [h0, h1, h2, if_true, if_false]
        exact ecEvent_apply E .warning .runtimeError (by decide) w
      · have h2 : i > 10 := by omega
        simp only [h0, h1, h2, if_true, if_false]
        have := ecEvent_apply E .catastrophic .runtimeError (by decide) w
        simpa [notify, Event.levelReq] using this

theorem Sim.checkOk {E : Env δ ω} {root : Str} {path : List Str} :
    Sim E root path (checkRval E (.int 0)) () [] := by
  intro w hw
  exact ⟨rfl, rfl, fun _ => hw⟩

theorem Sim.opHandler {E : Env δ ω} {root : Str} {path : List Str} {c : HCall}
    {body : M (World δ ω) Ret} {evs : List (Ev δ ω)}
    (h : Sim E root path body (.int 0) evs) : Sim E root path (operationHandler E c body) () evs := by
  unfold operationHandler
  have := (Sim.log (E := E) (root := root) (path := path) (.handlerEntry c.handlerName c.rawKey c.rawValue)).bind
    (f := fun _ => do
      let r ← body
      logAdd E (.handlerExit c.handlerName c.rawKey c.rawValue)
      checkRval E r)
    (h.bind (f := fun r => do
      logAdd E (.handlerExit c.handlerName c.rawKey c.rawValue)
      checkRval E r) ((Sim.log _).bind Sim.checkOk))
  exact this.congr rfl (by simp)

/-- A call of a subclass handler. -/
theorem Sim.call {E : Env δ ω} {root : Str} {path : List Str} (h : Handler δ ω) (c : HCall) :
    Sim E root path (callHandler E h c) () [.call h c] := by
  intro w hw
  have hrep : replay E root [.call h c] w.toCore = evStep E root (.call h c) w.toCore := by
    simp only [replay]
    cases evStep E root (.call h c) w.toCore with
    | mk o c => cases o <;> rfl
  rw [hrep]
  unfold callHandler
  cases hd : h.decorated with
  | false =>
    simp only [Bool.false_eq_true, if_false, M.bind_def, runHandlerBody, evStep, hd]
    cases (h.run c w.shared w.self).1 with
    | ok v => exact ⟨rfl, rfl, fun _ => hw⟩
    | error e => exact ⟨rfl, rfl, fun h => by cases h⟩
  | true =>
    have logd : ∀ (l : LogEntry) (w : World δ ω), ∃ w', logAdd E l w = (.ok (), w') ∧
        w'.toCore = w.toCore ∧ w'.processed = w.processed := by
      intro l w
      unfold logAdd
      simp only [M.modify_apply]
      split <;> exact ⟨_, rfl, rfl, rfl⟩
    simp only [if_true, operationHandler]
    obtain ⟨w1, e1, c1, p1⟩ := logd (.handlerEntry c.handlerName c.rawKey c.rawValue) w
    rw [M.bind_ok e1]
    have hs : w1.shared = w.shared := congrArg Core.shared c1
    have hself : w1.self = w.self := congrArg Core.self c1
    simp only [M.bind_def, runHandlerBody, evStep, hd, hs, hself]
    cases (h.run c w.shared w.self).1 with
    | error e => simp [outcomeV, c1]
    | ok v =>
      simp only [if_true]
      obtain ⟨w2, e2, c2, p2⟩ := logd (.handlerExit c.handlerName c.rawKey c.rawValue)
        { w1 with shared := (h.run c w.shared w.self).2.1, self := (h.run c w.shared w.self).2.2 }
      rw [e2]
      simp only
      obtain ⟨r1, r2, r3, _⟩ := checkRval_apply E v w2
      have hc : w2.toCore = { w.toCore with shared := (h.run c w.shared w.self).2.1,
                                            self := (h.run c w.shared w.self).2.2 } := by
        rw [c2]; simp [← c1]
      rw [← hc]
      refine ⟨r1, r2, fun _ x => ?_⟩
      rw [r3, p2]
      simp only [p1]
      exact hw x

theorem addSection_apply (s : Str) (w : World δ ω) :
    addSection s w = (.ok (), { w with data := if (Dict.get? w.data s).isSome then w.data
                                              else w.data ++ [(s, [])] }) := by
  unfold addSection
  simp only [M.modify_apply, Dict.mem]
  by_cases h : (Dict.get? w.data s).isSome = true
  · simp [h]
  · have h' : Dict.get? w.data s = none := by simpa using h
    simp [h', Dict.set_of_get?_none _ _ _ h']

theorem Sim.store {E : Env δ ω} {root : Str} {path : List Str} (k : Str) (v : Option Str) :
    Sim E root path (dataSet root k v) () [.store k v] := by
  intro w hw
  have : dataSet root k v w = (.ok (), { w with data :=
        (Dict.set w.data root (Dict.set ((Dict.get? w.data root).getD []) k v)) }) := by
    unfold dataSet
    rw [M.bind_ok (addSection_apply root w), M.modify_apply]
    cases h : Dict.get? w.data root with
    | some v => simp [h]
    | none =>
      have h1 : w.data ++ [(root, [])] = Dict.set w.data root [] := (Dict.set_of_get?_none _ _ _ h).symm
      simp [h1, Dict.get?_set_self, Dict.set_set]
  rw [this]
  exact ⟨rfl, rfl, fun _ => hw⟩

theorem Sim.generic {E : Env δ ω} {root : Str} {path : List Str} (sec k : Str) (v : Option Str) :
    Sim E root path (launchGeneric E root sec k v) () [.store k v] := by
  unfold launchGeneric
  have := (Sim.store (E := E) (root := root) (path := path) k v).bind
    (f := fun _ => operationHandler E
      { sectionName := sec, sectionRoot := root, rawKey := some k, rawValue := v,
        handlerName := py!"_generic_option_handler" } (pure (.int 0)))
    (Sim.opHandler (Sim.pure' (Ret.int 0)))
  exact this.congr rfl (by simp)

theorem opOfToken_eq (t : Str) : opOfToken t = opName t := rfl

theorem opName_idem (t : Str) : opName (opName t) = opName t := by
  simp only [opName, List.map_map]
  congr 1; funext c
  simp only [Function.comp]
  by_cases h : c = '-'
  · simp [h]
  · simp [h]

theorem publicMethod_eq (E : Env δ ω) (op : Str) : publicMethod E op = publicHandler E op := rfl

/-- Dispatch of one option that is not a link. -/
theorem Sim.optionEvents {E : Env δ ω} {root : Str} {path : List Str} {s k : Str} {evs : List (Ev δ ω)}
    (rec : Str → M (World δ ω) Unit) (h : meaning E root s k = .events evs) :
    Sim E root path (processOption E rec root s k) () evs := by
  unfold processOption
  unfold meaning at h
  cases hv : E.cfg.value s k with
  | error e =>
    rw [hv] at h
    cases h
    exact (Sim.raise' e ()).congr rfl rfl
  | ok v =>
    rw [hv] at h
    simp only at h
    rw [M.ofExcept_ok_bind]
    dsimp only
    generalize v.map (fun x => stripQuotes (strip x)) = v' at h ⊢
    refine ((Sim.log (.keyValue (strip k) v')).bind
      (evs' := evs) ?_).congr rfl (by simp)
    simp only [tokenizeOptionKey, strip_idem]
    cases hs : shlexSplit (strip k) with
    | error e =>
      rw [hs] at h; cases h
      exact (Sim.raise' e ()).congr rfl rfl
    | ok toks =>
      rw [hs] at h
      cases toks with
      | nil => cases h; exact (Sim.raise' .indexError ()).congr rfl rfl
      | cons t ps =>
        simp only at h
        show Sim E root path (if matchesOp t = false then _ else _) () evs
        by_cases hop : OpWord t
        · have hm : ¬ (matchesOp t = false) := by
            rw [(opWord_iff_matches t).mp hop]; simp
          rw [if_pos hop] at h
          rw [if_neg hm]
          refine ((Sim.log (.operation (opOfToken t) ps)).bind
            (evs' := evs) ?_).congr rfl (by simp)
          simp only [locateHandler, opOfToken_eq, opName_idem, publicMethod_eq]
          generalize opName t = op at h
          cases hp : publicHandler E op with
          | none =>
            cases hq : E.priv op with
            | none =>
              rw [hp, hq] at h; cases h
              exact (Sim.generic s _ _).congr rfl rfl
            | some i =>
              rw [hp, hq] at h
              cases i with
              | user g =>
                cases h
                exact (Sim.call g _).congr rfl rfl
              | use =>
                cases ps with
                | nil =>
                  cases h
                  refine (Sim.opHandler (E := E) (body := M.raise .indexError)
                    (Sim.raise' .indexError (Ret.int 0))).congr rfl rfl
                | cons a as => cases h
          | some g =>
            cases hq : E.priv op with
            | none =>
              rw [hp, hq] at h; cases h
              exact (Sim.call g _).congr rfl rfl
            | some i =>
              rw [hp, hq] at h; cases h
              exact (((Sim.ambiguous op).bind (Sim.pure' (some (py!"handler_" ++ op, Impl.user g)))).bind
                (f := fun h => match h with
                  | none => launchGeneric E root s (strip k) v'
                  | some (name, impl) => callImpl E rec impl
                    { sectionName := s, sectionRoot := root, rawKey := some (strip k), rawValue := v',
                      op := op, params := ps, value := v', handlerName := name })
                (Sim.call g _)).congr rfl rfl
        · have hm : matchesOp t = false := by
            cases hb : matchesOp t with
            | false => rfl
            | true => exact absurd ((opWord_iff_matches t).mpr hb) hop
          rw [if_neg hop] at h; cases h
          rw [if_pos hm]
          exact (Sim.generic s _ _).congr rfl rfl

/-- Dispatch of a link: what `_handler_use` does with its target. -/
theorem Sim.optionLink {E : Env δ ω} {root : Str} {path : List Str} {s k t : Str} {evs : List (Ev δ ω)}
    (rec : Str → M (World δ ω) Unit) (h : meaning E root s k = .link t)
    (hc : t ∈ path → evs = [.cycle s t])
    (hr : t ∉ path → Sim E root path (rec t) () evs) :
    Sim E root path (processOption E rec root s k) () evs := by
  unfold processOption
  unfold meaning at h
  cases hv : E.cfg.value s k with
  | error e => rw [hv] at h; cases h
  | ok v =>
    rw [hv] at h
    simp only at h
    rw [M.ofExcept_ok_bind]
    dsimp only
    generalize v.map (fun x => stripQuotes (strip x)) = v' at h ⊢
    refine ((Sim.log (.keyValue (strip k) v')).bind
      (evs' := evs) ?_).congr rfl (by simp)
    simp only [tokenizeOptionKey, strip_idem]
    cases hs : shlexSplit (strip k) with
    | error e => rw [hs] at h; cases h
    | ok toks =>
      rw [hs] at h
      cases toks with
      | nil => cases h
      | cons tk ps =>
        simp only at h
        show Sim E root path (if matchesOp tk = false then _ else _) () evs
        by_cases hop : OpWord tk
        · have hm : ¬ (matchesOp tk = false) := by
            rw [(opWord_iff_matches tk).mp hop]; simp
          rw [if_pos hop] at h
          rw [if_neg hm]
          refine ((Sim.log (.operation (opOfToken tk) ps)).bind
            (evs' := evs) ?_).congr rfl (by simp)
          simp only [locateHandler, opOfToken_eq, opName_idem, publicMethod_eq]
          generalize opName tk = op at h
          cases hp : publicHandler E op with
          | some g =>
            cases hq : E.priv op with
            | none => rw [hp, hq] at h; cases h
            | some i => rw [hp, hq] at h; cases h
          | none =>
            cases hq : E.priv op with
            | none => rw [hp, hq] at h; cases h
            | some i =>
              rw [hp, hq] at h
              cases i with
              | user g => cases h
              | use =>
                cases ps with
                | nil => cases h
                | cons a as =>
                  cases h
                  refine (Sim.opHandler (E := E) (body := useBody E rec _) ?_).congr rfl rfl
                  unfold useBody
                  intro w hw
                  simp only [M.read_bind]
                  by_cases ht : t ∈ path
                  · rw [if_pos ((hw t).mpr ht), hc ht]
                    refine (((Sim.log _).bind ((Sim.log _).bind ((Sim.cycle s t).bind
                      (Sim.pure' (Ret.int 0))))).congr rfl ?_) w hw
                    simp
                  · rw [if_neg (fun hx => ht ((hw t).mp hx))]
                    exact (((hr ht).bind (Sim.pure' (Ret.int 0))).congr rfl (by simp)) w hw
        · rw [if_neg hop] at h; cases h

end CPE
