import Verif.Proofs.Fuel
import Verif.Proofs.Pres
import Verif.Spec.Chronicle
/-
The log of a parse, failed or not, is the replay of its chronicle.
-/
namespace CPE
open Spec
variable {δ ω : Type}

/-- As `Sim`, with the log. -/
def LSim {α : Type} (E : Env δ ω) (root : Str) (path : List Str) (m : M (World δ ω) α) (a : α)
    (its : List (Step δ ω)) : Prop :=
  ∀ w : World δ ω, (∀ x, x ∈ w.processed ↔ x ∈ path) →
    (m w).1 = outcomeV a (replayItems E root its w.toCore w.log).1 ∧
    (m w).2.toCore = (replayItems E root its w.toCore w.log).2.1 ∧
    (m w).2.log = (replayItems E root its w.toCore w.log).2.2 ∧
    ((m w).1 = .ok a → ∀ x, x ∈ (m w).2.processed ↔ x ∈ path)

theorem replayItems_append (E : Env δ ω) (root : Str) (a b : List (Step δ ω)) (c : Core δ ω) (log : List LogEntry) :
    replayItems E root (a ++ b) c log =
      match replayItems E root a c log with
      | (none, c', log') => replayItems E root b c' log'
      | (some e, c', log') => (some e, c', log') := by
  induction a generalizing c log with
  | nil => rfl
  | cons it a ih =>
    simp only [List.cons_append, replayItems]
    cases h : stepOne E root it c log with
    | mk o p => cases o with
      | none => simp [ih]
      | some e => rfl

theorem LSim.bind {α β : Type} {E : Env δ ω} {root : Str} {path : List Str} {m : M (World δ ω) α} {a : α}
    {f : α → M (World δ ω) β} {b : β} {its its' : List (Step δ ω)}
    (h : LSim E root path m a its) (h' : LSim E root path (f a) b its') :
    LSim E root path (m >>= f) b (its ++ its') := by
  intro w hw
  obtain ⟨h1, h2, h4, h3⟩ := h w hw
  rw [M.bind_def, replayItems_append]
  cases hm : m w with
  | mk o w' =>
    rw [hm] at h1 h2 h3 h4
    cases hr : replayItems E root its w.toCore w.log with
    | mk r cl =>
      obtain ⟨c, l⟩ := cl
      rw [hr] at h1 h2 h4
      cases r with
      | none =>
        simp only [outcomeV] at h1 h2 h3 h4
        subst h1
        have := h' w' (h3 rfl)
        rw [h2, h4] at this
        simpa using this
      | some e =>
        simp only [outcomeV] at h1 h2 h4
        subst h1
        simp [outcomeV, h2, h4]

theorem LSim.pure' {α : Type} {E : Env δ ω} {root : Str} {path : List Str} (a : α) :
    LSim E root path (pure a) a [] := by
  intro w hw
  exact ⟨rfl, rfl, rfl, fun _ => hw⟩

theorem LSim.congr {α : Type} {E : Env δ ω} {root : Str} {path : List Str} {m m' : M (World δ ω) α} {a : α}
    {its its' : List (Step δ ω)} (h : LSim E root path m a its) (hm : m' = m) (he : its' = its) :
    LSim E root path m' a its' := by subst hm he; exact h

theorem LSim.log {E : Env δ ω} (hd : 0 < E.debug) {root : Str} {path : List Str} (l : LogEntry) :
    LSim E root path (logAdd E l) () [.log l] := by
  intro w hw
  unfold logAdd
  simp only [M.modify_apply, replayItems, stepOne, outcomeV, hd, if_true, true_and]
  exact fun _ => hw

/-- A step that does not touch the log. -/
theorem LSim.ofSim {α : Type} {E : Env δ ω} {root : Str} {path : List Str} {m : M (World δ ω) α} {a : α} {e : Ev δ ω}
    (h : Sim E root path m a [e]) (hl : ∀ w, (m w).2.log = w.log) (hc : ∀ h c, e ≠ .call h c) :
    LSim E root path m a [.ev e] := by
  intro w hw
  obtain ⟨h1, h2, h3⟩ := h w hw
  have : replayItems E root [.ev e] w.toCore w.log =
      ((replay E root [e] w.toCore).1, (replay E root [e] w.toCore).2, w.log) := by
    have hi : stepOne E root (.ev e) w.toCore w.log = ((evStep E root e w.toCore).1, (evStep E root e w.toCore).2, w.log) := by
      cases e with
      | call h' c => exact absurd rfl (hc h' c)
      | _ => rfl
    simp only [replayItems, replay, hi]
    cases hx : evStep E root e w.toCore with
    | mk o c => cases o <;> rfl
  rw [this]
  exact ⟨h1, h2, hl w, h3⟩

theorem LSim.raise' {α : Type} {E : Env δ ω} {root : Str} {path : List Str} (e : PyExc) (a : α) :
    LSim E root path (M.raise e) a [.ev (.fail e)] :=
  .ofSim (Sim.raise' e a) (fun _ => rfl) (by simp)

theorem LSim.cycle {E : Env δ ω} {root : Str} {path : List Str} (s t : Str) :
    LSim E root path (ecEvent E .warning .valueError) () [.ev (.cycle s t)] :=
  .ofSim (Sim.cycle s t) (fun _ => rfl) (by simp)

theorem LSim.ambiguous {E : Env δ ω} {root : Str} {path : List Str} (op : Str) :
    LSim E root path (ecEvent E .serious .ambiguousHandler) () [.ev (.ambiguous op)] :=
  .ofSim (Sim.ambiguous op) (fun _ => rfl) (by simp)

theorem LSim.checkOk {E : Env δ ω} {root : Str} {path : List Str} :
    LSim E root path (checkRval E (.int 0)) () [] := by
  intro w hw
  exact ⟨rfl, rfl, rfl, fun _ => hw⟩

theorem LSim.opHandler {E : Env δ ω} (hd : 0 < E.debug) {root : Str} {path : List Str} {c : HCall}
    {body : M (World δ ω) Ret} {its : List (Step δ ω)}
    (h : LSim E root path body (.int 0) its) :
    LSim E root path (operationHandler E c body) ()
      (.log (.handlerEntry c.handlerName c.rawKey c.rawValue) :: its ++ [.log (.handlerExit c.handlerName c.rawKey c.rawValue)]) := by
  unfold operationHandler
  have := (LSim.log hd (root := root) (path := path) (.handlerEntry c.handlerName c.rawKey c.rawValue)).bind
    (f := fun _ => do
      let r ← body
      logAdd E (.handlerExit c.handlerName c.rawKey c.rawValue)
      checkRval E r)
    (h.bind (f := fun r => do
      logAdd E (.handlerExit c.handlerName c.rawKey c.rawValue)
      checkRval E r) ((LSim.log hd _).bind LSim.checkOk))
  exact this.congr rfl (by simp)

/-- A call of a subclass handler. -/
theorem LSim.call {E : Env δ ω} (hdb : 0 < E.debug) {root : Str} {path : List Str} (h : Handler δ ω) (c : HCall) :
    LSim E root path (callHandler E h c) () [.ev (.call h c)] := by
  intro w hw
  obtain ⟨s1, s2, s3⟩ := Sim.call (E := E) (root := root) (path := path) h c w hw
  have hrep : replayItems E root [.ev (.call h c)] w.toCore w.log =
      ((replay E root [.call h c] w.toCore).1, (replay E root [.call h c] w.toCore).2,
        if h.decorated = true then
          match (h.run c w.shared w.self).1 with
          | .error _ => w.log ++ [.handlerEntry c.handlerName c.rawKey c.rawValue]
          | .ok _ => w.log ++ [.handlerEntry c.handlerName c.rawKey c.rawValue, .handlerExit c.handlerName c.rawKey c.rawValue]
        else w.log) := by
    simp only [replayItems, replay, stepOne]
    cases evStep E root (.call h c) w.toCore with
    | mk o c => cases o <;> rfl
  rw [hrep]
  refine ⟨s1, s2, ?_, s3⟩
  dsimp only
  unfold callHandler
  cases hd : h.decorated with
  | false =>
    simp only [Bool.false_eq_true, if_false, M.bind_def, runHandlerBody]
    cases (h.run c w.shared w.self).1 <;> rfl
  | true =>
    have logd : ∀ (l : LogEntry) (w : World δ ω), logAdd E l w = (.ok (), { w with log := w.log ++ [l] }) := by
      intro l w
      unfold logAdd
      simp only [M.modify_apply, hdb, if_true]
    simp only [if_true, operationHandler]
    rw [M.bind_ok (logd _ _)]
    simp only [M.bind_def, runHandlerBody]
    cases (h.run c w.shared w.self).1 with
    | error e => rfl
    | ok v =>
      simp only [logd]
      obtain ⟨_, _, _, r4⟩ := checkRval_apply E v
        { w with log := w.log ++ [.handlerEntry c.handlerName c.rawKey c.rawValue] ++ [.handlerExit c.handlerName c.rawKey c.rawValue],
                 shared := (h.run c w.shared w.self).2.1, self := (h.run c w.shared w.self).2.2 }
      rw [r4]
      simp

theorem LSim.generic {E : Env δ ω} (hd : 0 < E.debug) {root : Str} {path : List Str} (sec k : Str) (v : Option Str) :
    LSim E root path (launchGeneric E root sec k v) () (unhandledItems k v) := by
  unfold launchGeneric
  have hs : LSim E root path (dataSet root k v) () [.ev (.store k v)] :=
    .ofSim (Sim.store k v) (fun w => by rw [dataSet_apply]) (by simp)
  have := hs.bind
    (f := fun _ => operationHandler E
      { sectionName := sec, sectionRoot := root, rawKey := some k, rawValue := v,
        handlerName := py!"_generic_option_handler" } (pure (.int 0)))
    (LSim.opHandler hd (LSim.pure' (Ret.int 0)))
  exact this.congr rfl rfl

/-- Dispatch of one option that is not a link. -/
theorem LSim.optionItems {E : Env δ ω} (hd : 0 < E.debug) {root : Str} {path : List Str} {s k : Str} {its : List (Step δ ω)}
    (rec : Str → M (World δ ω) Unit) (h : entry E root s k = .items its) :
    LSim E root path (processOption E rec root s k) () its := by
  unfold processOption
  unfold entry at h
  cases hv : E.cfg.value s k with
  | error e =>
    rw [hv] at h
    cases h
    exact (LSim.raise' e ()).congr rfl rfl
  | ok v =>
    rw [hv] at h
    simp only at h
    rw [M.ofExcept_ok_bind]
    dsimp only
    generalize v.map (fun x => stripQuotes (strip x)) = v' at h ⊢
    have step : ∀ {m : Unit → M (World δ ω) Unit} {rest : List (Step δ ω)}, LSim E root path (m ()) () rest →
        LSim E root path (logAdd E (.keyValue (strip k) v') >>= m) () (.log (.keyValue (strip k) v') :: rest) :=
      fun hm => (LSim.log hd _).bind hm
    simp only [tokenizeOptionKey, strip_idem]
    cases hs : shlexSplit (strip k) with
    | error e =>
      rw [hs] at h; cases h
      exact step ((LSim.raise' e ()).congr rfl rfl)
    | ok toks =>
      rw [hs] at h
      cases toks with
      | nil => cases h; exact step ((LSim.raise' .indexError ()).congr rfl rfl)
      | cons t ps =>
        simp only at h
        by_cases hop : OpWord t
        · have hm : ¬ (matchesOp t = false) := by
            rw [(opWord_iff_matches t).mp hop]; simp
          rw [if_pos hop] at h
          suffices hx : ∃ rest, its = .log (.keyValue (strip k) v') :: .log (.operation (opName t) ps) :: rest ∧
              LSim E root path (locateHandler E (opOfToken t) >>= fun x => match x with
                | none => launchGeneric E root s (strip k) v'
                | some (name, impl) => callImpl E rec impl (HCall.mk s root (some (strip k)) v' (opOfToken t) ps v' name)) () rest by
            obtain ⟨rest, rfl, hx⟩ := hx
            refine step ?_
            show LSim E root path (if matchesOp t = false then _ else _) () _
            rw [if_neg hm]
            exact (LSim.log hd (.operation (opOfToken t) ps)).bind hx
          simp only [locateHandler, opOfToken_eq, opName_idem, publicMethod_eq]
          cases hp : publicHandler E (opName t) with
          | none =>
            cases hq : E.priv (opName t) with
            | none =>
              rw [hp, hq] at h; cases h
              exact ⟨_, rfl, (LSim.generic hd s _ _).congr rfl rfl⟩
            | some i =>
              rw [hp, hq] at h
              cases i with
              | user g =>
                cases h
                exact ⟨_, rfl, (LSim.call hd g _).congr rfl rfl⟩
              | use =>
                cases ps with
                | nil =>
                  cases h
                  refine ⟨_, rfl, ?_⟩
                  show LSim E root path (operationHandler E _ (M.raise .indexError)) () _
                  intro w hw
                  exact (LSim.opHandler (E := E) hd (body := M.raise .indexError) (LSim.raise' .indexError (Ret.int 0))) w hw
                | cons a as => cases h
          | some g =>
            cases hq : E.priv (opName t) with
            | none =>
              rw [hp, hq] at h; cases h
              exact ⟨_, rfl, (LSim.call hd g _).congr rfl rfl⟩
            | some i =>
              rw [hp, hq] at h; cases h
              refine ⟨_, rfl, ?_⟩
              simp only [Option.isSome_some, Bool.and_self, if_true]
              rw [M.bind_assoc]
              exact (LSim.ambiguous (opName t)).bind (its' := [.ev (.call g _)]) (LSim.call hd g _)
        · have hm : matchesOp t = false := by
            cases hb : matchesOp t with
            | false => rfl
            | true => exact absurd ((opWord_iff_matches t).mpr hb) hop
          rw [if_neg hop] at h; cases h
          refine step ?_
          rw [M.ofExcept_ok_bind]
          dsimp only
          rw [if_pos hm]
          exact LSim.generic hd s _ _

/-- Dispatch of a link. -/
theorem LSim.optionLink {E : Env δ ω} (hd : 0 < E.debug) {root : Str} {path : List Str} {s k t name op k' : Str} {v : Option Str}
    {before its : List (Step δ ω)}
    (rec : Str → M (World δ ω) Unit) (h : entry E root s k = .link before name op k' v t)
    (hc : t ∈ path → its = [.log (.cycleDetected s op), .log (.handlerExit name (some k') v), .ev (.cycle s t)])
    (hr : t ∉ path → LSim E root path (rec t) () its) :
    LSim E root path (processOption E rec root s k) ()
      (before ++ [.log (.handlerEntry name (some k') v)] ++ its ++ [.log (.handlerExit name (some k') v)]) := by
  unfold processOption
  unfold entry at h
  cases hv : E.cfg.value s k with
  | error e => rw [hv] at h; cases h
  | ok v0 =>
    rw [hv] at h
    simp only at h
    rw [M.ofExcept_ok_bind]
    dsimp only
    generalize v0.map (fun x => stripQuotes (strip x)) = v' at h ⊢
    simp only [tokenizeOptionKey, strip_idem]
    cases hs : shlexSplit (strip k) with
    | error e => rw [hs] at h; cases h
    | ok toks =>
      rw [hs] at h
      cases toks with
      | nil => cases h
      | cons tk ps =>
        simp only at h
        by_cases hop : OpWord tk
        · have hm : ¬ (matchesOp tk = false) := by
            rw [(opWord_iff_matches tk).mp hop]; simp
          rw [if_pos hop] at h
          cases hp : publicHandler E (opName tk) with
          | some g =>
            cases hq : E.priv (opName tk) with
            | none => rw [hp, hq] at h; cases h
            | some i => rw [hp, hq] at h; cases h
          | none =>
            cases hq : E.priv (opName tk) with
            | none => rw [hp, hq] at h; cases h
            | some i =>
              rw [hp, hq] at h
              cases i with
              | user g => cases h
              | use =>
                cases ps with
                | nil => cases h
                | cons a as =>
                  cases h
                  have hbody : LSim E root path (useBody E rec
                      { sectionName := s, sectionRoot := root, rawKey := some (strip k), rawValue := v, op := opName tk,
                        params := t :: as, value := v, handlerName := py!"_handler_" ++ opName tk }) (.int 0) its := by
                    unfold useBody
                    intro w hw
                    simp only [M.read_bind]
                    by_cases ht : t ∈ path
                    · rw [if_pos ((hw t).mpr ht), hc ht]
                      exact (((LSim.log hd _).bind ((LSim.log hd _).bind ((LSim.cycle s t).bind
                        (LSim.pure' (Ret.int 0))))).congr rfl (by simp)) w hw
                    · rw [if_neg (fun hx => ht ((hw t).mp hx))]
                      exact (((hr ht).bind (LSim.pure' (Ret.int 0))).congr rfl (by simp)) w hw
                  have hall := (LSim.log hd (root := root) (path := path) (.keyValue (strip k) v)).bind
                    (f := fun _ => logAdd E (.operation (opName tk) (t :: as)) >>= fun _ => operationHandler E
                      { sectionName := s, sectionRoot := root, rawKey := some (strip k), rawValue := v, op := opName tk,
                        params := t :: as, value := v, handlerName := py!"_handler_" ++ opName tk } (useBody E rec
                      { sectionName := s, sectionRoot := root, rawKey := some (strip k), rawValue := v, op := opName tk,
                        params := t :: as, value := v, handlerName := py!"_handler_" ++ opName tk }))
                    ((LSim.log hd _).bind (LSim.opHandler hd hbody))
                  refine hall.congr ?_ (by simp)
                  rw [M.ofExcept_ok_bind]
                  dsimp only
                  rw [if_neg hm]
                  simp only [locateHandler, opOfToken_eq, opName_idem, publicMethod_eq, hp, hq]
                  rfl
        · rw [if_neg hop] at h; cases h

/-- The call of the finalize hook, for the root. -/
def finItems (E : Env δ ω) (root s : Str) (fin : Bool) : List (Step δ ω) :=
  if fin && s = root then [.ev (.call E.hookFinal (hookCall root py!"handler_finalize"))] else []

theorem LSim.append_missing {α : Type} {E : Env δ ω} {root : Str} {path : List Str} {m : M (World δ ω) α} {a : α} {s : Str}
    {pre : List (Step δ ω)} (h : LSim E root path m a (pre ++ [.ev (.missing s)])) (l : List (Step δ ω)) :
    LSim E root path m a (pre ++ [.ev (.missing s)] ++ l) := by
  intro w hw
  have := h w hw
  have he : replayItems E root (pre ++ [.ev (.missing s)] ++ l) w.toCore w.log =
      replayItems E root (pre ++ [.ev (.missing s)]) w.toCore w.log := by
    rw [List.append_assoc, replayItems_append, replayItems_append E root pre]
    cases replayItems E root pre w.toCore w.log with
    | mk o p => cases o <;> rfl
  rw [he]
  exact this

theorem LSim.main_missing {E : Env δ ω} (hd : 0 < E.debug) {root : Str} {path : List Str} {s : Str} {fin : Bool}
    (rec : Str → M (World δ ω) Unit) (ho : E.cfg.optionNames s = none) :
    LSim E root path (parseMain E rec root s fin) () [.log (.sectionEntry s), .ev (.missing s)] := by
  unfold parseMain
  rw [ho]
  refine (LSim.log hd _).bind (its' := [.ev (.missing s)]) ?_
  exact .ofSim (fun w hw => ⟨rfl, rfl, fun h => by cases h⟩) (fun _ => rfl) (by simp)

theorem LSim.main {E : Env δ ω} (hdb : 0 < E.debug) {root : Str} {path : List Str} {s : Str} {keys : List Str} {fin : Bool}
    {its : List (Step δ ω)} (rec : Str → M (World δ ω) Unit) (ho : E.cfg.optionNames s = some keys)
    (hp : s ∉ path)
    (h : LSim E root (s :: path) (M.forEach keys (processOption E rec root s)) () its) :
    LSim E root path (parseMain E rec root s fin) ()
      (.log (.sectionEntry s) :: .ev (.visit s) :: its ++ finItems E root s fin ++ [.log (.sectionExit s)]) := by
  unfold parseMain
  rw [ho]
  have hbody : LSim E root (s :: path) (do
      M.forEach keys (processOption E rec root s)
      if fin && s = root then
        callHandler E E.hookFinal
          { sectionName := s, sectionRoot := root, handlerName := py!"handler_finalize" }) ()
      (its ++ finItems E root s fin) := by
    refine h.bind ?_
    unfold finItems
    by_cases hf : (fin && decide (s = root)) = true
    · rw [if_pos hf, if_pos hf]
      have : s = root := by simp at hf; exact hf.2
      subst this
      exact LSim.call hdb _ _
    · rw [if_neg hf, if_neg hf]
      exact LSim.pure' ()
  have hwhole : LSim E root path (do
      addSection s
      M.modify fun w => { w with processed := setAdd w.processed s }
      M.forEach keys (processOption E rec root s)
      if fin && s = root then
        callHandler E E.hookFinal
          { sectionName := s, sectionRoot := root, handlerName := py!"handler_finalize" }
      let w ← M.read
      if s ∈ w.processed then
        M.modify fun w => { w with processed := setDel w.processed s }
        logAdd E (.sectionExit s)
      else M.raise .keyError : M (World δ ω) Unit) () (.ev (.visit s) :: (its ++ finItems E root s fin) ++ [.log (.sectionExit s)]) := by
    intro w hw
    dsimp only
    rw [M.bind_ok (addSection_apply s w), M.modify_bind]
    have hrep : ∀ l, replayItems E root (.ev (.visit s) :: l) w.toCore w.log = replayItems E root l
        { w.toCore with data := if (Dict.get? w.data s).isSome then w.data else w.data ++ [(s, [])] } w.log := by
      intro l
      simp only [replayItems, stepOne, evStep]
      by_cases hd : (Dict.get? w.data s).isSome = true
      · simp [hd]
      · simp [hd]
    rw [List.cons_append, hrep]
    generalize hw' : ({ w with
      data := if (Dict.get? w.data s).isSome then w.data else w.data ++ [(s, [])],
      processed := setAdd w.processed s } : World δ ω) = w'
    have hc : w'.toCore = { w.toCore with
        data := if (Dict.get? w.data s).isSome then w.data else w.data ++ [(s, [])] } := by
      rw [← hw']
    have hlog : w'.log = w.log := by rw [← hw']
    have hpr : ∀ x, x ∈ w'.processed ↔ x ∈ s :: path := by
      intro x
      rw [← hw']
      simp only [mem_setAdd, List.mem_cons, hw]
    have key := hbody w' hpr
    rw [← hc, ← hlog]
    have hsplit : ∀ (g : Unit → M (World δ ω) Unit), (do
        M.forEach keys (processOption E rec root s)
        if fin && s = root then
          callHandler E E.hookFinal
            { sectionName := s, sectionRoot := root, handlerName := py!"handler_finalize" }
          g ()
        else g ()) = ((do
        M.forEach keys (processOption E rec root s)
        if fin && s = root then
          callHandler E E.hookFinal
            { sectionName := s, sectionRoot := root, handlerName := py!"handler_finalize" }) >>= g) := by
      intro g
      rw [M.bind_assoc]
      congr 1
      funext _
      by_cases hf : (fin && decide (s = root)) = true
      · rw [if_pos hf, if_pos hf]
      · rw [if_neg hf, if_neg hf]; rfl
    have := hsplit (fun _ => do
      let w ← M.read
      if s ∈ w.processed then
        M.modify fun w => { w with processed := setDel w.processed s }
        logAdd E (.sectionExit s)
      else M.raise .keyError)
    rw [this, M.bind_def, replayItems_append]
    obtain ⟨k1, k2, k4, k3⟩ := key
    cases hm : (do
        M.forEach keys (processOption E rec root s)
        if fin && s = root then
          callHandler E E.hookFinal
            { sectionName := s, sectionRoot := root, handlerName := py!"handler_finalize" } : M (World δ ω) Unit) w' with
    | mk o w2 =>
      rw [hm] at k1 k2 k3 k4
      cases hr : replayItems E root (its ++ finItems E root s fin) w'.toCore w'.log with
      | mk r cl =>
        obtain ⟨c, l⟩ := cl
        rw [hr] at k1 k2 k4
        cases r with
        | some e =>
          simp only [outcomeV] at k1 k2 k4
          subst k1
          simp [outcomeV, k2, k4]
        | none =>
          simp only [outcomeV] at k1 k2 k3 k4
          subst k1
          have k3 := k3 rfl
          have hin : s ∈ w2.processed := (k3 s).mpr (by simp)
          simp only [M.read_bind, if_pos hin, M.modify_bind]
          unfold logAdd
          simp only [M.modify_apply, outcomeV, hdb, if_true, replayItems, stepOne, true_and]
          have hpath : ∀ x, x ∈ setDel w2.processed s ↔ x ∈ path := by
            intro x
            rw [mem_setDel, k3]
            simp only [List.mem_cons]
            constructor
            · rintro ⟨h1 | h1, h2⟩
              · exact absurd h1 h2
              · exact h1
            · intro h1
              exact ⟨.inr h1, fun h2 => hp (h2 ▸ h1)⟩
          refine ⟨k2, ?_, fun _ => hpath⟩
          rw [k4]
  have := (LSim.log hdb (root := root) (path := path) (.sectionEntry s)).bind (f := fun _ => _) hwhole
  exact this.congr rfl (by simp)

/-- The property proved by induction on the chronicle. -/
def LSimTask (E : Env δ ω) (root : Str) : Task → List (Step δ ω) → Prop
  | .sec path s, its => ∀ n, todo E path ≤ n → s ∉ path → (root ∈ path ∨ root = s ∨ ¬ Reaches E s root) →
      ∀ fin, LSim E root path (parseMain E (fun t => parseR E n root t true false) root s fin) ()
        (its ++ finItems E root s fin ++ [.log (.sectionExit s)])
  | .opts path s keys, its => ∀ n, todo E path + 1 ≤ n → (root ∈ path ∨ ¬ Reaches E s root) →
      (∃ names, E.cfg.optionNames s = some names ∧ ∀ k ∈ keys, k ∈ names) →
      LSim E root path (M.forEach keys (processOption E (fun t => parseR E n root t true false) root s)) () its

theorem entry_link_meaning {E : Env δ ω} {root s k t name op k' : Str} {v : Option Str} {before : List (Step δ ω)}
    (h : entry E root s k = .link before name op k' v t) : meaning E root s k = .link t := by
  unfold entry at h
  unfold meaning
  cases hv : E.cfg.value s k with
  | error e => rw [hv] at h; cases h
  | ok v0 =>
    rw [hv] at h
    simp only at h ⊢
    cases hs : shlexSplit (strip k) with
    | error e => rw [hs] at h; cases h
    | ok toks =>
      rw [hs] at h
      cases toks with
      | nil => cases h
      | cons tk ps =>
        simp only at h ⊢
        by_cases hop : OpWord tk
        · rw [if_pos hop] at h ⊢
          cases hp : publicHandler E (opName tk) with
          | some g => cases hq : E.priv (opName tk) <;> (rw [hp, hq] at h; cases h)
          | none =>
            cases hq : E.priv (opName tk) with
            | none => rw [hp, hq] at h; cases h
            | some i =>
              rw [hp, hq] at h
              cases i with
              | user g => cases h
              | use =>
                cases ps with
                | nil => cases h
                | cons a as => cases h; rfl
        · rw [if_neg hop] at h; cases h

theorem entry_items_meaning {E : Env δ ω} {root s k : Str} {its : List (Step δ ω)}
    (h : entry E root s k = .items its) : meaning E root s k = .events (eventsOf its) := by
  unfold entry at h
  unfold meaning
  cases hv : E.cfg.value s k with
  | error e => rw [hv] at h; cases h; rfl
  | ok v0 =>
    rw [hv] at h
    simp only at h ⊢
    cases hs : shlexSplit (strip k) with
    | error e => rw [hs] at h; cases h; rfl
    | ok toks =>
      rw [hs] at h
      cases toks with
      | nil => cases h; rfl
      | cons tk ps =>
        simp only at h ⊢
        by_cases hop : OpWord tk
        · rw [if_pos hop] at h ⊢
          cases hp : publicHandler E (opName tk) with
          | some g => cases hq : E.priv (opName tk) <;> (rw [hp, hq] at h; cases h; rfl)
          | none =>
            cases hq : E.priv (opName tk) with
            | none => rw [hp, hq] at h; cases h; rfl
            | some i =>
              rw [hp, hq] at h
              cases i with
              | user g => cases h; rfl
              | use =>
                cases ps with
                | nil => cases h; rfl
                | cons a as => cases h
        · rw [if_neg hop] at h ⊢; cases h; rfl

theorem lsimTask {E : Env δ ω} (hd : 0 < E.debug) {root : Str} {task : Task} {its : List (Step δ ω)}
    (h : Chronicle E root task its) : LSimTask E root task its := by
  induction h with
  | @missing path s ho =>
    intro n _ _ _ fin
    have := (LSim.main_missing (path := path) (root := root) (fin := fin) hd (fun t => parseR E n root t true false) ho).append_missing
      (pre := [.log (.sectionEntry s)]) (finItems E root s fin ++ [.log (.sectionExit s)])
    exact this.congr rfl (by simp)
  | @sec path s keys its ho _ ih =>
    intro n hn hs hr fin
    have hs' : s ∈ E.cfg.allNames := (Cfg.optionNames_isSome _ _).mp (by simp [ho])
    have hlt := todo_cons_lt hs' hs
    refine LSim.main hd _ ho hs (ih n (by omega) ?_ ⟨keys, ho, fun _ h => h⟩)
    rcases hr with h | h | h
    · exact .inl (by simp [h])
    · exact .inl (by simp [h])
    · exact .inr h
  | nil =>
    intro n _ _ _
    exact LSim.pure' ()
  | @plain path s k ks evs rest hm _ ih =>
    intro n hn hr ⟨names, ho, hk⟩
    rw [M.forEach_cons]
    exact (LSim.optionItems hd _ hm).bind (ih n hn hr ⟨names, ho, fun k h => hk k (by simp [h])⟩)
  | @cyclic path s k ks before name op k' v t rest hm hp _ ih =>
    intro n hn hr ⟨names, ho, hk⟩
    rw [M.forEach_cons]
    refine ((LSim.optionLink hd (its := [.log (.cycleDetected s op), .log (.handlerExit name (some k') v), .ev (.cycle s t)])
      _ hm (fun _ => rfl) (fun h => absurd hp h)).bind
      (ih n hn hr ⟨names, ho, fun k h => hk k (by simp [h])⟩)).congr rfl (by simp)
  | @link path s k ks before name op k' v t sub rest hm hp _ _ ih1 ih2 =>
    intro n hn hr ⟨names, ho, hk⟩
    rw [M.forEach_cons]
    refine ((LSim.optionLink hd (its := sub ++ [.log (.sectionExit t)]) _ hm (fun h => absurd h hp) (fun _ => ?_)).bind
      (ih2 n hn hr ⟨names, ho, fun k h => hk k (by simp [h])⟩)).congr rfl (by simp)
    obtain ⟨n, rfl⟩ : ∃ m, n = m + 1 := ⟨n - 1, by omega⟩
    have hlink : Links E s t := links_of_meaning ho (hk k (by simp)) (entry_link_meaning hm)
    have hr' : root ∈ path ∨ ¬ Reaches E t root := by
      rcases hr with h | h
      · exact .inl h
      · exact .inr (fun hx => h (.step hlink hx))
    have hne : t ≠ root := by
      rintro rfl
      rcases hr' with h | h
      · exact hp h
      · exact h (.refl _)
    have := ih1 n (by omega) hp (by rcases hr' with h | h; exact .inl h; exact .inr (.inr h)) false
    refine this.congr ?_ (by simp [finItems])
    simp only [parseR, hne, decide_false, Bool.and_false, Bool.false_eq_true, if_false]

theorem lsimParse {E : Env δ ω} (hdb : 0 < E.debug) {root : Str} {init fin : Bool} {its : List (Step δ ω)} {n : Nat}
    (ht : ParseChronicle E root init fin its)
    (hn : E.cfg.sectionNames.length + 3 ≤ n)
    (hd : init = true → E.cfg.hasSection E.defaultName = true →
      root = E.defaultName ∨ ¬ Reaches E E.defaultName root) :
    LSim E root [] (parseR E n root root init fin) () its := by
  obtain ⟨h1, h2, h3⟩ := ht
  obtain ⟨n, rfl⟩ : ∃ m, n = m + 2 := ⟨n - 2, by omega⟩
  rename_i itsD itsR
  have hroot := lsimTask hdb h3 (n + 1) (by rw [todo_nil]; omega) (by simp) (.inr (.inl rfl)) fin
  have hfin : finItems E root root fin =
      (if fin then [.ev (.call E.hookFinal (hookCall root py!"handler_finalize"))] else []) := by
    simp [finItems]
  rw [hfin] at hroot
  have hR : parseR E (n + 2) root root init fin = (do
      if init then
        callHandler E E.hookInit
          { sectionName := root, sectionRoot := root, handlerName := py!"handler_initialize" }
        if E.cfg.hasSection E.defaultName then
          parseR E (n + 1) root E.defaultName false false
      parseMain E (fun t => parseR E (n + 1) root t true false) root root fin) := by
    simp only [parseR, decide_true, Bool.and_true]
  rw [hR]
  cases init with
  | false =>
    have := h2 (by simp)
    subst this
    simpa using hroot
  | true =>
    simp only [if_true]
    have hi := LSim.call (E := E) hdb (root := root) (path := []) E.hookInit (hookCall root py!"handler_initialize")
    by_cases hh : E.cfg.hasSection E.defaultName = true
    · obtain ⟨its, hD, rfl⟩ := h1 ⟨rfl, hh⟩
      have hDs := lsimTask hdb hD n (by rw [todo_nil]; omega) (by simp)
        (by rcases hd rfl hh with h | h; exact .inr (.inl h); exact .inr (.inr h)) false
      have hPD : parseR E (n + 1) root E.defaultName false false =
          parseMain E (fun t => parseR E n root t true false) root E.defaultName false := by
        simp [parseR]
      simp only [hh, if_true]
      rw [hPD]
      refine (hi.bind (hDs.bind hroot)).congr rfl ?_
      simp [finItems]
    · have := h2 (by simp [hh])
      subst this
      simp only [hh]
      exact (hi.bind hroot).congr rfl (by simp)

theorem eventsOf_append (a b : List (Step δ ω)) : eventsOf (a ++ b) = eventsOf a ++ eventsOf b := by
  simp [eventsOf]

/-- Without the log a chronicle is an unrolling. -/
theorem chronicle_unrolls {E : Env δ ω} {root : Str} {task : Task} {its : List (Step δ ω)} (h : Chronicle E root task its) :
    Unrolls E root task (eventsOf its) := by
  have before_nil : ∀ {s k t name op k' : Str} {v : Option Str} {before : List (Step δ ω)},
      entry E root s k = .link before name op k' v t → eventsOf before = [] := by
    intro s k t name op k' v before h
    unfold entry at h
    split at h
    · cases h
    · dsimp only at h
      split at h
      · cases h
      · cases h
      · split at h
        · split at h <;> try cases h
          split at h
          · cases h
          · cases h; rfl
        · cases h
  induction h with
  | missing ho => exact .missing ho
  | sec ho _ ih => exact .sec ho ih
  | nil => exact .nil
  | plain hm _ ih => rw [eventsOf_append]; exact .plain (entry_items_meaning hm) ih
  | cyclic hm hp _ ih =>
    rw [eventsOf_append, eventsOf_append, before_nil hm]
    exact .cyclic (entry_link_meaning hm) hp ih
  | link hm hp _ _ ih1 ih2 =>
    rw [eventsOf_append, eventsOf_append, eventsOf_append, eventsOf_append, before_nil hm]
    simp only [List.nil_append]
    have : ∀ (l : List LogEntry), eventsOf (δ := δ) (ω := ω) (l.map .log) = [] := by
      intro l; induction l <;> simp_all [eventsOf]
    exact (by simpa [eventsOf] using Unrolls.link (entry_link_meaning hm) hp ih1 ih2)

theorem chronicle_opts_total {E : Env δ ω} {root : Str} {path : List Str} (s : Str) (keys : List Str)
    (h : ∀ t, t ∉ path → ∃ its, Chronicle E root (.sec path t) its) :
    ∃ its, Chronicle E root (.opts path s keys) its := by
  induction keys with
  | nil => exact ⟨_, .nil⟩
  | cons k ks ih =>
    obtain ⟨rest, hrest⟩ := ih
    cases he : entry E root s k with
    | items its => exact ⟨_, .plain he hrest⟩
    | link before name op k' v t =>
      by_cases hp : t ∈ path
      · exact ⟨_, .cyclic he hp hrest⟩
      · obtain ⟨sub, hsub⟩ := h t hp
        exact ⟨_, .link he hp hsub hrest⟩

theorem chronicle_total (E : Env δ ω) (root : Str) (path : List Str) (s : Str) (hp : s ∉ path) :
    ∃ its, Chronicle E root (.sec path s) its := by
  generalize hn : todo E path = n
  induction n using Nat.strongRecOn generalizing path s with
  | _ n ih =>
    subst hn
    cases ho : E.cfg.optionNames s with
    | none => exact ⟨_, .missing ho⟩
    | some keys =>
      have hs' : s ∈ E.cfg.allNames := (Cfg.optionNames_isSome _ _).mp (by simp [ho])
      have hlt := todo_cons_lt hs' hp
      obtain ⟨its, h⟩ := chronicle_opts_total (E := E) (root := root) (path := s :: path) s keys
        (fun t ht => ih _ hlt _ t ht rfl)
      exact ⟨_, .sec ho h⟩

theorem chronicle_det {E : Env δ ω} {root : Str} {task : Task} {a b : List (Step δ ω)}
    (ha : Chronicle E root task a) (hb : Chronicle E root task b) : a = b := by
  induction ha generalizing b with
  | missing ho =>
    cases hb with
    | missing => rfl
    | sec ho' => rw [ho] at ho'; cases ho'
  | sec ho _ ih =>
    cases hb with
    | missing ho' => rw [ho] at ho'; cases ho'
    | sec ho' h' => rw [ho] at ho'; cases ho'; rw [ih h']
  | nil => cases hb; rfl
  | plain hm _ ih =>
    cases hb with
    | plain hm' h' => rw [hm] at hm'; cases hm'; rw [ih h']
    | cyclic hm' => rw [hm] at hm'; cases hm'
    | link hm' => rw [hm] at hm'; cases hm'
  | cyclic hm hp _ ih =>
    cases hb with
    | plain hm' => rw [hm] at hm'; cases hm'
    | cyclic hm' _ h' => rw [hm] at hm'; cases hm'; rw [ih h']
    | link hm' hp' => rw [hm] at hm'; cases hm'; exact absurd hp hp'
  | link hm hp _ _ ih1 ih2 =>
    cases hb with
    | plain hm' => rw [hm] at hm'; cases hm'
    | cyclic hm' hp' => rw [hm] at hm'; cases hm'; exact absurd hp' hp
    | link hm' _ h1 h2 => rw [hm] at hm'; cases hm'; rw [ih1 h1, ih2 h2]

end CPE
