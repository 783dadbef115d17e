import Verif.Proofs.Console
/-
What a parse prints is what its trace says.
-/
namespace CPE.Con
open CPE.Spec hiding entry Entry Task
open CPE.Con.Spec
variable {δ ω : Type}

/-! ### The lines are those of the trace -/

section
variable {E : Env δ ω} {P : Printer δ} {root : Str} {path : List Str}

theorem printed_append (d : Nat) (a b : List Line) : printed d (a ++ b) = printed d a ++ printed d b := by simp [printed]

theorem say_apply (E : Env δ ω) {k : Nat} (hk : 0 < k) (t : Str) (w : CPE.World δ ω) (l : List Printed) :
    say E k t (w, l) = (.ok (), w, l ++ printed E.debug [(k, t)]) := by
  unfold Con.say DbgState.debugMessage DbgState.getLevel
  dsimp only
  have h2' : (k : Int) > 0 := by omega
  by_cases h1 : k ≤ E.debug
  · have h1' : (E.debug : Int) ≥ (k : Int) := by omega
    simp [h1, hk, printed, DbgState.decimal]
  · have h1' : ¬ (E.debug : Int) ≥ (k : Int) := by omega
    simp [h1, printed]

theorem say_bind {α : Type} (E : Env δ ω) {k : Nat} (hk : 0 < k) (t : Str) (f : Unit → M (World δ ω) α) (w : CPE.World δ ω)
    (l : List Printed) : (say E k t >>= f) (w, l) = f () (w, l ++ printed E.debug [(k, t)]) := by
  rw [M.bind_ok (say_apply E hk t w l)]

/-- The record in the log: nothing that can be seen. -/
def logged (E : Env δ ω) (e : LogEntry) (w : CPE.World δ ω) : CPE.World δ ω := if E.debug > 0 then { w with log := w.log ++ [e] } else w

theorem logged_core (e : LogEntry) (w : CPE.World δ ω) : (logged E e w).toCore = w.toCore := by unfold logged; split <;> rfl
theorem logged_processed (e : LogEntry) (w : CPE.World δ ω) : (logged E e w).processed = w.processed := by unfold logged; split <;> rfl

theorem lift_log (e : LogEntry) (w : CPE.World δ ω) (l : List Printed) : lift (logAdd E e) (w, l) = (.ok (), logged E e w, l) := by
  have : (logged E e w).out = w.out := by unfold logged; split <;> rfl
  unfold Con.lift logAdd
  simp only [M.modify_apply]
  change (_, logged E e w, l ++ ((logged E e w).out.drop w.out.length).map .notice) = _
  rw [this]
  simp

theorem plain_eq (v : Option Str) : showValue v = plain v := by cases v <;> rfl
theorem pair_eq (c : HCall) : showRaw P c = pair P c := by
  unfold showRaw pair reprValue quoted; rfl
theorem join_eq (sep : Str) (l : List Str) : joinStr sep l = (l.intersperse sep).flatten := by
  induction l with
  | nil => rfl
  | cons a l ih =>
    cases l with
    | nil => simp [joinStr]
    | cons b l => simp only [joinStr, List.intersperse_cons_cons, List.flatten_cons, ih]; simp
theorem listed_eq (l : List Str) : showParams P l = listed P l := by
  unfold showParams listed; rw [join_eq]

theorem enter_apply (c : HCall) (w : CPE.World δ ω) (l : List Printed) : enterHandler E P c (w, l) =
    (.ok (), logged E (.handlerEntry c.handlerName c.rawKey c.rawValue) w, l ++ printed E.debug (entering P w.processed c w.shared)) := by
  unfold enterHandler
  simp only [say_bind E (show 0 < 1 by decide), say_bind E (show 0 < 2 by decide), say_bind E (show 0 < 3 by decide),
    say_bind E (show 0 < 4 by decide), M.read_bind, lift_log, List.append_assoc, ← printed_append]
  simp only [plain_eq, pair_eq, listed_eq, entering, List.cons_append, List.nil_append]

theorem exit_apply (c : HCall) (w : CPE.World δ ω) (l : List Printed) : exitHandler E P c (w, l) =
    (.ok (), logged E (.handlerExit c.handlerName c.rawKey c.rawValue) w, l ++ printed E.debug (leaving P w.processed c w.shared)) := by
  unfold exitHandler
  simp only [say_bind E (show 0 < 1 by decide), say_bind E (show 0 < 3 by decide),
    say_bind E (show 0 < 4 by decide), M.read_bind, lift_log, List.append_assoc, ← printed_append]
  simp only [pair_eq, leaving, List.cons_append, List.nil_append]

/-- As `Sim`, with what is printed. -/
def CSim {α : Type} (E : Env δ ω) (P : Printer δ) (root : Str) (path : List Str) (m : M (World δ ω) α) (a : α)
    (its : List (Item δ ω)) : Prop :=
  ∀ (w : CPE.World δ ω) (l : List Printed), w.processed = path →
    (m (w, l)).1 = outcomeV a (play E P root its w.toCore).1 ∧
    (m (w, l)).2.1.toCore = (play E P root its w.toCore).2.1 ∧
    (m (w, l)).2.2 = l ++ (play E P root its w.toCore).2.2 ∧
    ((m (w, l)).1 = .ok a → (m (w, l)).2.1.processed = path)

theorem play_append (a b : List (Item δ ω)) (c : Core δ ω) :
    play E P root (a ++ b) c =
      match play E P root a c with
      | (none, c', l) => ((play E P root b c').1, (play E P root b c').2.1, l ++ (play E P root b c').2.2)
      | (some e, c', l) => (some e, c', l) := by
  induction a generalizing c with
  | nil => simp [play]
  | cons it a ih =>
    simp only [List.cons_append, play]
    cases h : playOne E P root it c with
    | mk o p =>
      obtain ⟨c', l⟩ := p
      cases o with
      | none =>
        simp only [ih]
        cases play E P root a c' with
        | mk o2 p2 => obtain ⟨c2, l2⟩ := p2; cases o2 <;> simp
      | some e => rfl

theorem play_one (it : Item δ ω) (c : Core δ ω) : play E P root [it] c = playOne E P root it c := by
  simp only [play]
  cases playOne E P root it c with
  | mk o p => obtain ⟨c', l⟩ := p; cases o <;> simp

theorem CSim.bind {α β : Type} {m : M (World δ ω) α} {a : α}
    {f : α → M (World δ ω) β} {b : β} {its its' : List (Item δ ω)}
    (h : CSim E P root path m a its) (h' : CSim E P root path (f a) b its') :
    CSim E P root path (m >>= f) b (its ++ its') := by
  intro w l hw
  obtain ⟨h1, h2, h4, h3⟩ := h w l hw
  rw [M.bind_def, play_append]
  cases hm : m (w, l) with
  | mk o w' =>
    obtain ⟨w', l'⟩ := w'
    rw [hm] at h1 h2 h3 h4
    cases hr : play E P root its w.toCore with
    | mk r cl =>
      obtain ⟨c, lp⟩ := cl
      rw [hr] at h1 h2 h4
      cases r with
      | none =>
        simp only [outcomeV] at h1 h2 h3 h4
        subst h1
        have := h' w' l' (h3 rfl)
        rw [h2, h4] at this
        rw [h4]
        simpa using this
      | some e =>
        simp only [outcomeV] at h1 h2 h4
        subst h1
        simp [outcomeV, h2, h4]

theorem CSim.pure' {α : Type} (a : α) : CSim E P root path (pure a) a [] := by
  intro w l hw
  exact ⟨rfl, rfl, by simp [play, pure, M.pure], fun _ => hw⟩

theorem CSim.congr {α : Type} {m m' : M (World δ ω) α} {a : α}
    {its its' : List (Item δ ω)} (h : CSim E P root path m a its) (hm : m' = m) (he : its' = its) :
    CSim E P root path m' a its' := by subst hm he; exact h

/-- The same steps, differently grouped. -/
theorem CSim.same {α : Type} {m : M (World δ ω) α} {a : α} {its its' : List (Item δ ω)} (h : CSim E P root path m a its)
    (he : ∀ c, play E P root its' c = play E P root its c) : CSim E P root path m a its' := by
  intro w l hw
  rw [he]
  exact h w l hw

theorem CSim.log (e : LogEntry) : CSim E P root path (lift (logAdd E e)) () [] := by
  intro w l hw
  rw [lift_log]
  exact ⟨rfl, logged_core e w, by simp [play], fun _ => by rw [logged_processed, hw]⟩

/-- After a record in the log. -/
theorem CSim.logs {β : Type} {f : Unit → M (World δ ω) β} {b : β} {its : List (Item δ ω)} (e : LogEntry)
    (h : CSim E P root path (f ()) b its) : CSim E P root path (lift (logAdd E e) >>= f) b its :=
  (CSim.log e).bind h

theorem play_lines_nil (its : List (Item δ ω)) (c : Core δ ω) :
    play E P root (.lines (fun _ => []) :: its) c = play E P root its c := by
  simp [play, playOne, printed]

/-- A message. -/
theorem CSim.say {k : Nat} (hk : 0 < k) (t : Str) : CSim E P root path (say E k t) () [.lines fun _ => [(k, t)]] := by
  intro w l hw
  rw [say_apply E hk, play_one]
  exact ⟨rfl, rfl, rfl, fun _ => hw⟩

/-- A message before others. -/
theorem CSim.says {β : Type} {f : Unit → M (World δ ω) β} {b : β} {g : δ → List Line} {its : List (Item δ ω)} {k : Nat} (hk : 0 < k)
    (t : Str) (h : CSim E P root path (f ()) b (.lines g :: its)) :
    CSim E P root path (Con.say E k t >>= f) b (.lines (fun d => (k, t) :: g d) :: its) := by
  refine ((CSim.say hk t).bind h).same fun c => ?_
  have : printed E.debug ((k, t) :: g c.shared) = printed E.debug [(k, t)] ++ printed E.debug (g c.shared) := by
    rw [← printed_append]; rfl
  simp only [List.cons_append, List.nil_append, play, playOne, this, List.append_assoc]

theorem CSim.blank {β : Type} {m : M (World δ ω) β} {b : β} {its : List (Item δ ω)} (h : CSim E P root path m b its) :
    CSim E P root path m b (.lines (fun _ => []) :: its) := h.same fun c => play_lines_nil its c

/-- A step of the parser that prints nothing but notices. -/
theorem CSim.ofSim {α : Type} {m : M (CPE.World δ ω) α} {a : α} {e : Ev δ ω}
    (h : Sim E root path m a [e]) (hl : ∀ w, (m w).1 = .ok a → (m w).2.processed = w.processed) :
    CSim E P root path (lift m) a [.ev e] := by
  intro w l hw
  obtain ⟨h1, h2, h3⟩ := h w (by rw [hw]; simp)
  have hr : replay E root [e] w.toCore = evStep E root e w.toCore := by
    simp only [replay]
    cases evStep E root e w.toCore with
    | mk o c => cases o <;> rfl
  rw [hr] at h1 h2
  rw [play_one]
  refine ⟨h1, h2, ?_, fun ho => by rw [← hw]; exact hl w ho⟩
  show l ++ ((m w).2.out.drop w.out.length).map .notice = l ++ ((evStep E root e w.toCore).2.out.drop w.out.length).map .notice
  rw [← h2]

theorem CSim.fail {α : Type} (e : PyExc) (a : α) : CSim E P root path (M.raise e) a [.ev (.fail e)] := by
  intro w l hw
  rw [play_one]
  exact ⟨rfl, rfl, by simp [playOne, evStep, M.raise], fun h => by cases h⟩

theorem CSim.cycle (s t : Str) : CSim E P root path (lift (ecEvent E .warning .valueError)) () [.ev (.cycle s t)] :=
  .ofSim (Sim.cycle s t) (fun _ _ => rfl)

theorem CSim.ambiguous (op : Str) : CSim E P root path (lift (ecEvent E .serious .ambiguousHandler)) () [.ev (.ambiguous op)] :=
  .ofSim (Sim.ambiguous op) (fun _ _ => rfl)

theorem CSim.enter (c : HCall) : CSim E P root path (enterHandler E P c) () [.lines (entering P path c)] := by
  intro w l hw
  rw [enter_apply, play_one]
  refine ⟨rfl, logged_core _ w, ?_, fun _ => by rw [logged_processed, hw]⟩
  rw [hw]; rfl

theorem CSim.exit (c : HCall) : CSim E P root path (exitHandler E P c) () [.lines (leaving P path c)] := by
  intro w l hw
  rw [exit_apply, play_one]
  refine ⟨rfl, logged_core _ w, ?_, fun _ => by rw [logged_processed, hw]⟩
  rw [hw]; rfl

theorem CSim.checkOk (name : Str) : CSim E P root path (checkRval E name (.int 0)) () [.lines fun _ => [returned name 0]] := by
  intro w l hw
  unfold Con.checkRval
  dsimp only
  rw [say_bind E (by decide), play_one]
  refine ⟨rfl, rfl, ?_, fun _ => hw⟩
  simp [Con.lift, CPE.checkRval, playOne, returned, pure, M.pure]

theorem CSim.opHandler {c : HCall} {body : M (World δ ω) Ret} {its : List (Item δ ω)}
    (h : CSim E P root path body (.int 0) its) :
    CSim E P root path (operationHandler E P c body) ()
      (.lines (entering P path c) :: its ++ [.lines (leaving P path c), .lines fun _ => [returned c.handlerName 0]]) := by
  unfold Con.operationHandler
  have := (CSim.enter (E := E) (root := root) (path := path) (P := P) c).bind
    (f := fun _ => do
      let r ← body
      exitHandler E P c
      checkRval E c.handlerName r)
    (h.bind (f := fun r => do
      exitHandler E P c
      checkRval E c.handlerName r) ((CSim.exit c).bind (CSim.checkOk _)))
  exact this.congr rfl (by simp)

/-- A call of a subclass handler. -/
theorem CSim.call (h : Handler δ ω) (c : HCall) : CSim E P root path (callHandler E P h c) () [.call path h c] := by
  intro w l hw
  obtain ⟨s1, s2, s3⟩ := Sim.call (E := E) (root := root) (path := path) h c w (by rw [hw]; simp)
  have hr : replay E root [.call h c] w.toCore = evStep E root (.call h c) w.toCore := by
    simp only [replay]
    cases evStep E root (.call h c) w.toCore with
    | mk o c => cases o <;> rfl
  rw [hr] at s1 s2
  have he := Erases.callHandler (E := E) (P := P) h c w l
  rw [← he.1] at s1
  rw [← he.2] at s2
  rw [play_one]
  refine ⟨s1, s2, ?_, fun _ => ?_⟩
  · have hout : (evStep E root (.call h c) w.toCore).2.out = (callHandler E P h c (w, l)).2.1.out := by rw [← s2]
    dsimp only [playOne]
    rw [hout]
    unfold Con.callHandler
    cases hd : h.decorated with
    | false =>
      simp only [Bool.false_eq_true, if_false, List.nil_append, M.bind_def, Con.lift, runHandlerBody]
      cases (h.run c w.shared w.self).1 <;> simp [pure, M.pure]
    | true =>
      simp only [if_true, Con.operationHandler]
      rw [M.bind_ok (enter_apply c w l)]
      rw [hw]
      have hsh : ∀ e, (logged E e w).shared = w.shared := fun e => by rw [show (logged E e w).shared = (logged E e w).toCore.shared from rfl, logged_core]
      have hse : ∀ e, (logged E e w).self = w.self := fun e => by rw [show (logged E e w).self = (logged E e w).toCore.self from rfl, logged_core]
      have hou : ∀ e, (logged E e w).out = w.out := fun e => by rw [show (logged E e w).out = (logged E e w).toCore.out from rfl, logged_core]
      simp only [M.bind_def, Con.lift, runHandlerBody, hsh, hse]
      cases (h.run c w.shared w.self).1 with
      | error e => simp [hou]
      | ok v =>
        simp only [List.drop_length, List.map_nil, List.append_nil, exit_apply, logged_processed, hw]
        generalize hw2 : logged E (.handlerExit c.handlerName c.rawKey c.rawValue) _ = w2
        have ho2 : w2.out = w.out := by
          rw [← hw2, show (logged E _ _).out = (logged E _ _).toCore.out from rfl, logged_core]
          exact hou _
        cases v with
        | notInt => simp [Con.checkRval, Con.lift, CPE.checkRval, M.raise, ho2]
        | int i =>
          simp only [Con.checkRval]
          rw [say_bind E (by decide)]
          simp only [Con.lift, ho2, List.append_assoc, ← printed_append, returned]
  · rw [he.2]
    unfold CPE.callHandler CPE.operationHandler
    have hlog : ∀ (e : LogEntry) (w : CPE.World δ ω), logAdd E e w = (.ok (), logged E e w) := fun _ _ => rfl
    split
    · rw [M.bind_ok (hlog _ _), M.bind_def]
      have hb := runHandlerBody_world h c (logged E (.handlerEntry c.handlerName c.rawKey c.rawValue) w)
      cases hx : runHandlerBody h c (logged E (.handlerEntry c.handlerName c.rawKey c.rawValue) w) with
      | mk o w2 =>
        rw [hx] at hb
        dsimp only at hb
        have hp : w2.processed = path := by
          rw [hb]
          exact (logged_processed _ w).trans hw
        cases o with
        | ok r =>
          dsimp only
          rw [M.bind_ok (hlog _ _), (checkRval_apply E r _).2.2.1, logged_processed, hp]
        | exc e => exact hp
        | diverge => exact hp
    · rw [M.bind_def]
      have hb := runHandlerBody_world h c w
      cases hx : runHandlerBody h c w with
      | mk o w2 =>
        rw [hx] at hb
        dsimp only at hb
        have hp : w2.processed = path := by rw [hb]; exact hw
        cases o <;> exact hp

theorem CSim.generic (hp : Last) (sec k : Str) (v : Option Str) :
    CSim E P root path (launchGeneric E P hp root sec k v) () (unhandled P path
      { sectionName := sec, sectionRoot := root, rawKey := some k, rawValue := v, op := hp.1, params := hp.2, value := v,
        handlerName := py!"_generic_option_handler" } k v) := by
  have hs : CSim E P root path (lift (dataSet root k v)) () [.ev (.store k v)] :=
    .ofSim (Sim.store k v) (fun w _ => by rw [dataSet_apply])
  exact (hs.bind (f := fun _ => operationHandler E P
      { sectionName := sec, sectionRoot := root, rawKey := some k, rawValue := v, op := hp.1, params := hp.2, value := v,
        handlerName := py!"_generic_option_handler" } (pure (.int 0)))
    (CSim.opHandler (CSim.pure' (Ret.int 0)))).congr rfl rfl

theorem CSim.value {α β : Type} {m : M (World δ ω) α} {a : α} {b : β} {its : List (Item δ ω)} (h : CSim E P root path m a its) :
    CSim E P root path (m >>= fun _ => pure b) b its :=
  (h.bind (f := fun _ => pure b) (CSim.pure' b)).congr rfl (by simp)

/-- A step that changes nothing and prints nothing. -/
theorem CSim.quiet {α β : Type} {m : M (CPE.World δ ω) α} {a : α} {f : α → M (World δ ω) β} {b : β} {its : List (Item δ ω)}
    (hm : m = pure a) (h : CSim E P root path (f a) b its) : CSim E P root path (lift m >>= f) b its := by
  subst hm
  intro w l hw
  have : (lift (pure a : M (CPE.World δ ω) α) >>= f) (w, l) = f a (w, l) := by
    rw [M.bind_def]
    simp [Con.lift, pure, M.pure]
  rw [this]
  exact h w l hw

theorem CSim.skip {β : Type} {f : Unit → M (World δ ω) β} {b : β} {its : List (Item δ ω)} (h : CSim E P root path (f ()) b its) :
    CSim E P root path (pure () >>= f) b its := h

/-- Locating a handler. -/
theorem CSim.located (t : Str) {β : Type} {f : Option (Str × Impl δ ω) → M (World δ ω) β} {b : β} {its : List (Item δ ω)}
    {found : Option (Str × Impl δ ω)} {pre : List (Item δ ω)}
    (hx : match publicHandler E (opName t), E.priv (opName t) with
      | none, none => found = none ∧ pre = [.lines fun _ => [(5, py!" -> Class method `" ++ (py!"handler_" ++ opName t) ++ py!"` was not found."),
          (5, py!" -> Class method `" ++ (py!"_handler_" ++ opName t) ++ py!"` was not found."),
          (4, py!" -> No handler found for operation `" ++ opName t ++ py!"`")]]
      | some h, none => found = some (py!"handler_" ++ opName t, .user h) ∧
          pre = [.lines fun _ => [(5, py!" -> Class method `" ++ (py!"_handler_" ++ opName t) ++ py!"` was not found."),
            (4, py!" -> Using _public_ handler : `" ++ (py!"handler_" ++ opName t) ++ py!"`")]]
      | some h, some _ => found = some (py!"handler_" ++ opName t, .user h) ∧
          pre = [.ev (.ambiguous (opName t)), .lines fun _ => [(4, py!" -> Using _public_ handler : `" ++ (py!"handler_" ++ opName t) ++ py!"`")]]
      | none, some i => found = some (py!"_handler_" ++ opName t, i) ∧
          pre = [.lines fun _ => [(5, py!" -> Class method `" ++ (py!"handler_" ++ opName t) ++ py!"` was not found."),
            (4, py!" -> Using _private_ handler: `" ++ (py!"_handler_" ++ opName t) ++ py!"`")]])
    (h : CSim E P root path (f found) b its) : CSim E P root path (locateHandler E (opName t) >>= f) b (pre ++ its) := by
  unfold Con.locateHandler CPE.locateHandler
  simp only [opOfToken_eq, opName_idem, publicMethod_eq]
  cases hp : publicHandler E (opName t) with
  | none =>
    cases hq : E.priv (opName t) with
    | none =>
      rw [hp, hq] at hx
      obtain ⟨rfl, rfl⟩ := hx
      simp only [sayMissing, Option.isSome_none, Bool.false_eq_true, if_false, M.bind_assoc]
      refine CSim.says (by decide) _ <| CSim.says (by decide) _ <| CSim.quiet rfl ?_
      exact CSim.says (by decide) _ <| CSim.blank h
    | some i =>
      rw [hp, hq] at hx
      obtain ⟨rfl, rfl⟩ := hx
      simp only [sayMissing, Option.isSome_none, Option.isSome_some, Bool.false_eq_true, if_false, if_true, M.bind_assoc]
      refine CSim.says (by decide) _ <| CSim.skip <| CSim.quiet (a := some (py!"_handler_" ++ opName t, i)) rfl ?_
      exact CSim.says (by decide) _ <| CSim.blank h
  | some g =>
    cases hq : E.priv (opName t) with
    | none =>
      rw [hp, hq] at hx
      obtain ⟨rfl, rfl⟩ := hx
      simp only [sayMissing, Option.isSome_none, Option.isSome_some, Bool.false_eq_true, if_false, if_true, M.bind_assoc]
      refine CSim.says (by decide) _ <| CSim.quiet (a := some (py!"handler_" ++ opName t, .user g)) rfl ?_
      exact CSim.says (by decide) _ <| CSim.blank h
    | some i =>
      rw [hp, hq] at hx
      obtain ⟨rfl, rfl⟩ := hx
      simp only [sayMissing, Option.isSome_some, if_true, Bool.and_self, M.bind_assoc]
      have hev : CSim E P root path (lift (ecEvent E .serious .ambiguousHandler >>= fun _ => pure (some (py!"handler_" ++ opName t, Impl.user g))))
          (some (py!"handler_" ++ opName t, Impl.user g)) [.ev (.ambiguous (opName t))] := by
        refine .ofSim ?_ ?_
        · exact ((Sim.ambiguous (opName t)).bind (f := fun _ => pure (some (py!"handler_" ++ opName t, Impl.user g)))
            (Sim.pure' _)).congr rfl rfl
        · intro w ho
          rw [M.bind_def] at ho ⊢
          have := (ecEvent_apply E .serious .ambiguousHandler (by decide) w).2.2.1
          revert ho this
          cases ecEvent E .serious .ambiguousHandler w with
          | mk o w' => cases o <;> exact fun _ h => h
      exact hev.bind (CSim.says (by decide) _ <| CSim.blank h)

/-- The lines with an option. -/
theorem CSim.seen {β : Type} {m : M (World δ ω) β} {b : β} {rest : List (Item δ ω)} (k : Str) (v : Option Str)
    (h : CSim E P root path m b rest) : CSim E P root path (do
      Con.say E 2 py!"==>"
      Con.say E 2 (py!"==> Entry        : `" ++ k ++ py!"` : `" ++ showValue v ++ py!"`")
      Con.say E 2 py!"==>"
      lift (logAdd E (.keyValue k v))
      m) b (.lines (fun _ => [(2, py!"==>"), (2, py!"==> Entry        : `" ++ k ++ py!"` : `" ++ plain v ++ py!"`"), (2, py!"==>")]) :: rest) := by
  rw [← plain_eq]
  exact CSim.says (by decide) _ <| CSim.says (by decide) _ <| CSim.says (by decide) _ <| CSim.blank <| CSim.logs _ h

/-- The lines with an operation. -/
theorem CSim.named {β : Type} {m : M (World δ ω) β} {b : β} {rest : List (Item δ ω)} (op : Str) (ps : List Str) (v : Option Str)
    (h : CSim E P root path m b rest) : CSim E P root path (do
      lift (logAdd E (.operation op ps))
      Con.say E 2 (py!" -> op           : " ++ op)
      Con.say E 2 (py!" -> params       : " ++ showParams P ps)
      Con.say E 2 (py!" -> value        : " ++ showValue v)
      m) b (.lines (fun _ => [(2, py!" -> op           : " ++ op), (2, py!" -> params       : " ++ listed P ps),
        (2, py!" -> value        : " ++ plain v)]) :: rest) := by
  rw [← plain_eq, ← listed_eq]
  exact CSim.logs _ <| CSim.says (by decide) _ <| CSim.says (by decide) _ <| CSim.says (by decide) _ <| CSim.blank h

/-- Dispatch of one option that is not a link. -/
theorem CSim.optionItems {s k : Str} {last last' : Last} {its : List (Item δ ω)}
    (rec : Str → M (World δ ω) Unit) (h : entry E P root path s last k = .items its last') :
    CSim E P root path (processOption E P rec root s last k) last' its := by
  unfold Con.processOption
  unfold entry at h
  cases hv : E.cfg.value s k with
  | error e =>
    rw [hv] at h
    cases h
    exact (CSim.fail e last).congr rfl rfl
  | ok v =>
    rw [hv] at h
    simp only at h
    rw [M.ofExcept_ok_bind]
    dsimp only
    generalize v.map (fun x => stripQuotes (strip x)) = v' at h ⊢
    simp only [tokenizeOptionKey, strip_idem]
    cases hs : shlexSplit (strip k) with
    | error e =>
      rw [hs] at h; cases h
      exact CSim.seen _ _ ((CSim.fail e last).congr rfl rfl)
    | ok toks =>
      rw [hs] at h
      cases toks with
      | nil => cases h; exact CSim.seen _ _ ((CSim.fail .indexError last).congr rfl rfl)
      | cons t ps =>
        simp only at h
        by_cases hop : OpWord t
        · have hm : ¬ (matchesOp t = false) := by
            rw [(opWord_iff_matches t).mp hop]; simp
          rw [if_pos hop] at h
          have wrap : ∀ {rest : List (Item δ ω)} {l2 : Last},
              CSim E P root path (locateHandler E (opName t) >>= fun h => (match h with
                | none => launchGeneric E P (opName t, ps) root s (strip k) v' >>= fun _ => pure (opName t, ps)
                | some (name, impl) => callImpl E P rec impl (HCall.mk s root (some (strip k)) v' (opName t) ps v' name) >>=
                    fun _ => pure (opName t, ps))) l2 rest →
              CSim E P root path (do
                Con.say E 2 py!"==>"
                Con.say E 2 (py!"==> Entry        : `" ++ strip k ++ py!"` : `" ++ showValue v' ++ py!"`")
                Con.say E 2 py!"==>"
                lift (logAdd E (.keyValue (strip k) v'))
                let toks ← M.ofExcept (.ok (t :: ps))
                match toks with
                | [] => M.raise .indexError
                | t :: params =>
                  if matchesOp t = false then do
                    launchGeneric E P last root s (strip k) v'
                    pure last
                  else do
                    lift (logAdd E (.operation (opOfToken t) params))
                    Con.say E 2 (py!" -> op           : " ++ opOfToken t)
                    Con.say E 2 (py!" -> params       : " ++ showParams P params)
                    Con.say E 2 (py!" -> value        : " ++ showValue v')
                    let h ← locateHandler E (opOfToken t)
                    match h with
                    | none => launchGeneric E P (opOfToken t, params) root s (strip k) v'
                    | some (name, impl) =>
                      callImpl E P rec impl
                        { sectionName := s, sectionRoot := root, rawKey := some (strip k), rawValue := v', op := opOfToken t,
                          params := params, value := v', handlerName := name }
                    pure (opOfToken t, params)) l2 (.lines (fun _ => [(2, py!"==>"),
                      (2, py!"==> Entry        : `" ++ strip k ++ py!"` : `" ++ plain v' ++ py!"`"), (2, py!"==>")]) ::
                  .lines (fun _ => [(2, py!" -> op           : " ++ opName t), (2, py!" -> params       : " ++ listed P ps),
                    (2, py!" -> value        : " ++ plain v')]) :: rest) := by
            intro rest l2 hx
            refine CSim.seen _ _ ?_
            rw [M.ofExcept_ok_bind]
            dsimp only
            rw [if_neg hm]
            simp only [opOfToken_eq]
            exact CSim.named _ _ _ hx
          cases hp : publicHandler E (opName t) with
          | none =>
            cases hq : E.priv (opName t) with
            | none =>
              rw [hp, hq] at h; cases h
              exact wrap (CSim.located t (found := none) (by rw [hp, hq]; exact ⟨rfl, rfl⟩) (CSim.generic (opName t, ps) s _ _).value)
            | some i =>
              rw [hp, hq] at h
              cases i with
              | user g =>
                cases h
                exact wrap (CSim.located t (found := some (_, .user g)) (by rw [hp, hq]; exact ⟨rfl, rfl⟩) (CSim.call g _).value)
              | use =>
                cases ps with
                | nil =>
                  cases h
                  refine wrap (CSim.located t (found := some (_, .use)) (by rw [hp, hq]; exact ⟨rfl, rfl⟩)
                    (its := [.lines (entering P path _), .ev (.fail .indexError)]) (CSim.value (a := ()) ?_))
                  show CSim E P root path (operationHandler E P _ (M.raise .indexError)) () _
                  intro w l hw
                  exact (CSim.opHandler (E := E) (body := M.raise .indexError) (CSim.fail .indexError (Ret.int 0))) w l hw
                | cons a as => cases h
          | some g =>
            cases hq : E.priv (opName t) with
            | none =>
              rw [hp, hq] at h; cases h
              exact wrap (CSim.located t (found := some (_, .user g)) (by rw [hp, hq]; exact ⟨rfl, rfl⟩) (CSim.call g _).value)
            | some i =>
              rw [hp, hq] at h; cases h
              exact wrap (CSim.located t (found := some (_, .user g)) (by rw [hp, hq]; exact ⟨rfl, rfl⟩) (CSim.call g _).value)
        · have hm : matchesOp t = false := by
            cases hb : matchesOp t with
            | false => rfl
            | true => exact absurd ((opWord_iff_matches t).mpr hb) hop
          rw [if_neg hop] at h; cases h
          refine CSim.seen _ _ ?_
          rw [M.ofExcept_ok_bind]
          dsimp only
          rw [if_pos hm]
          exact (CSim.generic last s _ _).value

/-- Dispatch of a link. -/
theorem CSim.optionLink {s k t : Str} {last last' : Last} {c : HCall} {before its : List (Item δ ω)}
    (rec : Str → M (World δ ω) Unit) (h : entry E P root path s last k = .link before c t last')
    (hc : t ∈ path → its = [.ev (.cycle s t)])
    (hr : t ∉ path → CSim E P root path (rec t) () its) :
    CSim E P root path (processOption E P rec root s last k) last'
      (before ++ [.lines (entering P path c)] ++ its ++ [.lines (leaving P path c), .lines fun _ => [returned c.handlerName 0]]) := by
  unfold Con.processOption
  unfold entry at h
  cases hv : E.cfg.value s k with
  | error e => rw [hv] at h; cases h
  | ok v0 =>
    rw [hv] at h
    simp only at h
    rw [M.ofExcept_ok_bind]
    dsimp only
    generalize v0.map (fun x => stripQuotes (strip x)) = v' at h ⊢
    simp only [tokenizeOptionKey, strip_idem]
    cases hs : shlexSplit (strip k) with
    | error e => rw [hs] at h; cases h
    | ok toks =>
      rw [hs] at h
      cases toks with
      | nil => cases h
      | cons tk ps =>
        simp only at h
        by_cases hop : OpWord tk
        · have hm : ¬ (matchesOp tk = false) := by
            rw [(opWord_iff_matches tk).mp hop]; simp
          rw [if_pos hop] at h
          cases hp : publicHandler E (opName tk) with
          | some g =>
            cases hq : E.priv (opName tk) with
            | none => rw [hp, hq] at h; cases h
            | some i => rw [hp, hq] at h; cases h
          | none =>
            cases hq : E.priv (opName tk) with
            | none => rw [hp, hq] at h; cases h
            | some i =>
              rw [hp, hq] at h
              cases i with
              | user g => cases h
              | use =>
                cases ps with
                | nil => cases h
                | cons a as =>
                  cases h
                  have hbody : CSim E P root path (useBody E rec
                      { sectionName := s, sectionRoot := root, rawKey := some (strip k), rawValue := v', op := opName tk,
                        params := t :: as, value := v', handlerName := py!"_handler_" ++ opName tk }) (.int 0) its := by
                    unfold Con.useBody
                    intro w l hw
                    simp only [M.read_bind]
                    by_cases ht : t ∈ path
                    · rw [if_pos (by rw [hw]; exact ht), hc ht]
                      exact (CSim.logs _ (CSim.logs _ ((CSim.cycle s t).bind (CSim.pure' (Ret.int 0))))) w l hw
                    · rw [if_neg (by rw [hw]; exact ht)]
                      exact (((hr ht).bind (CSim.pure' (Ret.int 0))).congr rfl (by simp)) w l hw
                  have hall := CSim.seen (E := E) (P := P) (root := root) (path := path) (strip k) v'
                    (CSim.named (opName tk) (t :: as) v' (CSim.located tk (found := some (py!"_handler_" ++ opName tk, .use))
                      (f := fun h => (match h with
                        | none => launchGeneric E P (opName tk, t :: as) root s (strip k) v' >>= fun _ => pure (opName tk, t :: as)
                        | some (name, impl) => callImpl E P rec impl (HCall.mk s root (some (strip k)) v' (opName tk) (t :: as) v' name) >>=
                            fun _ => pure (opName tk, t :: as)))
                      (by rw [hp, hq]; exact ⟨rfl, rfl⟩) (CSim.opHandler hbody).value))
                  refine hall.congr ?_ (by simp)
                  rw [M.ofExcept_ok_bind]
                  dsimp only
                  rw [if_neg hm]
                  simp only [opOfToken_eq]
                  rfl
        · rw [if_neg hop] at h; cases h

/-- The call of the finalize hook, for the root. -/
def finTrace (E : Env δ ω) (root : Str) (path : List Str) (s : Str) (fin : Bool) : List (Item δ ω) :=
  if fin && s = root then [.call (s :: path) E.hookFinal (hookCall root py!"handler_finalize")] else []

theorem CSim.append_missing {α : Type} {m : M (World δ ω) α} {a : α} {s : Str}
    {pre : List (Item δ ω)} (h : CSim E P root path m a (pre ++ [.ev (.missing s)])) (l : List (Item δ ω)) :
    CSim E P root path m a (pre ++ [.ev (.missing s)] ++ l) := by
  refine h.same fun c => ?_
  rw [List.append_assoc, play_append, play_append pre]
  cases play E P root pre c with
  | mk o p => obtain ⟨c', l'⟩ := p; cases o <;> rfl

theorem CSim.main_missing {s : Str} {fin : Bool}
    (rec : Str → M (World δ ω) Unit) (ho : E.cfg.optionNames s = none) :
    CSim E P root path (parseMain E P rec root s fin) () [enters s, .ev (.missing s)] := by
  unfold Con.parseMain
  rw [ho]
  refine CSim.says (by decide) _ <| CSim.blank <| CSim.logs _ ?_
  intro w l hw
  rw [play_one]
  exact ⟨rfl, rfl, by simp [playOne, evStep, M.raise], fun h => by cases h⟩

theorem CSim.main {s : Str} {keys : List Str} {fin : Bool}
    {its : List (Item δ ω)} (rec : Str → M (World δ ω) Unit) (ho : E.cfg.optionNames s = some keys)
    (hp : s ∉ path)
    (h : CSim E P root (s :: path) (processOptions E P rec root s ([], []) keys) () its) :
    CSim E P root path (parseMain E P rec root s fin) ()
      (enters s :: .ev (.visit s) :: its ++ finTrace E root path s fin ++ [exits s]) := by
  unfold Con.parseMain
  rw [ho]
  have hbody : CSim E P root (s :: path) (do
      processOptions E P rec root s ([], []) keys
      if fin && s = root then
        callHandler E P E.hookFinal
          { sectionName := s, sectionRoot := root, handlerName := py!"handler_finalize" }) ()
      (its ++ finTrace E root path s fin) := by
    refine h.bind ?_
    unfold finTrace
    by_cases hf : (fin && decide (s = root)) = true
    · rw [if_pos hf, if_pos hf]
      have : s = root := by simp at hf; exact hf.2
      subst this
      exact CSim.call _ _
    · rw [if_neg hf, if_neg hf]
      exact CSim.pure' ()
  refine CSim.says (k := 1) (g := fun _ => []) (its := .ev (.visit s) :: (its ++ finTrace E root path s fin ++ [exits s])) Nat.one_pos _ ?_
  refine CSim.blank ?_
  refine CSim.logs _ ?_
  intro w l hw
  dsimp only
  have hadd : lift (addSection s) (w, l) = (.ok (), { w with data := if (Dict.get? w.data s).isSome then w.data
      else w.data ++ [(s, [])] }, l) := by
    unfold Con.lift
    rw [addSection_apply]
    simp
  rw [M.bind_ok hadd]
  have hmod : ∀ (w : CPE.World δ ω) (l : List Printed), lift (M.modify fun w : CPE.World δ ω => { w with processed := setAdd w.processed s }) (w, l) =
      (.ok (), { w with processed := setAdd w.processed s }, l) := by
    intro w l
    simp [Con.lift, M.modify_apply]
  rw [M.bind_ok (hmod _ _)]
  have hrep : ∀ its', play E P root (.ev (.visit s) :: its') w.toCore = play E P root its'
      { w.toCore with data := if (Dict.get? w.data s).isSome then w.data else w.data ++ [(s, [])] } := by
    intro its'
    simp only [play, playOne, evStep]
    by_cases hd : (Dict.get? w.data s).isSome = true
    · simp [hd]
    · simp [hd]
  rw [hrep]
  generalize hw' : ({ w with
    data := if (Dict.get? w.data s).isSome then w.data else w.data ++ [(s, [])],
    processed := setAdd w.processed s } : CPE.World δ ω) = w'
  have hc : w'.toCore = { w.toCore with
      data := if (Dict.get? w.data s).isSome then w.data else w.data ++ [(s, [])] } := by
    rw [← hw']
  have hpr : w'.processed = s :: path := by
    rw [← hw', ← hw]
    exact if_neg (by rw [hw]; exact hp)
  have key := hbody w' l hpr
  rw [← hc]
  have hsplit : ∀ (g : Unit → M (World δ ω) Unit), (do
      processOptions E P rec root s ([], []) keys
      if fin && s = root then
        callHandler E P E.hookFinal
          { sectionName := s, sectionRoot := root, handlerName := py!"handler_finalize" }
        g ()
      else g ()) = ((do
      processOptions E P rec root s ([], []) keys
      if fin && s = root then
        callHandler E P E.hookFinal
          { sectionName := s, sectionRoot := root, handlerName := py!"handler_finalize" }) >>= g) := by
    intro g
    rw [M.bind_assoc]
    congr 1
    funext _
    by_cases hf : (fin && decide (s = root)) = true
    · rw [if_pos hf, if_pos hf]
    · rw [if_neg hf, if_neg hf]; rfl
  have := hsplit (fun _ => do
    let w ← M.read
    if s ∈ w.1.processed then
      lift (M.modify fun w => { w with processed := setDel w.processed s })
      lift (logAdd E (.sectionExit s))
      Con.say E 1 (py!"Exit section: `" ++ s ++ py!"`")
    else M.raise .keyError)
  rw [this, M.bind_def, play_append]
  obtain ⟨k1, k2, k4, k3⟩ := key
  cases hm : (do
      processOptions E P rec root s ([], []) keys
      if fin && s = root then
        callHandler E P E.hookFinal
          { sectionName := s, sectionRoot := root, handlerName := py!"handler_finalize" } : M (World δ ω) Unit) (w', l) with
  | mk o w2 =>
    obtain ⟨w2, l2⟩ := w2
    rw [hm] at k1 k2 k3 k4
    cases hr : play E P root (its ++ finTrace E root path s fin) w'.toCore with
    | mk r cl =>
      obtain ⟨c, lp⟩ := cl
      rw [hr] at k1 k2 k4
      cases r with
      | some e =>
        simp only [outcomeV] at k1 k2 k4
        subst k1
        simp [outcomeV, k2, k4]
      | none =>
        simp only [outcomeV] at k1 k2 k3 k4
        subst k1
        have k3 := k3 rfl
        have hin : s ∈ w2.processed := by rw [k3]; simp
        have hdel : ∀ (w : CPE.World δ ω) (l : List Printed), lift (M.modify fun w : CPE.World δ ω => { w with processed := setDel w.processed s }) (w, l) =
            (.ok (), { w with processed := setDel w.processed s }, l) := by
          intro w l
          simp [Con.lift, M.modify_apply]
        simp only [M.read_bind, if_pos hin]
        rw [M.bind_ok (hdel _ _), M.bind_ok (lift_log _ _ _), say_apply E (by decide)]
        have hpath : setDel w2.processed s = path := by
          rw [k3]
          unfold setDel
          rw [List.filter_cons_of_neg (by simp), List.filter_eq_self.2]
          intro x hx
          simp only [decide_eq_true_eq]
          rintro rfl
          exact hp hx
        refine ⟨rfl, ?_, ?_, fun _ => ?_⟩
        · dsimp only
          rw [logged_core]
          exact k2
        · dsimp only
          rw [k4, List.append_assoc, play_one]
          rfl
        · dsimp only
          rw [logged_processed]
          exact hpath

/-- The property proved by induction on the trace. -/
def CSimTask (E : Env δ ω) (P : Printer δ) (root : Str) : Task → List (Item δ ω) → Prop
  | .sec path s, its => ∀ n, todo E path ≤ n → s ∉ path → (root ∈ path ∨ root = s ∨ ¬ Reaches E s root) →
      ∀ fin, CSim E P root path (parseMain E P (fun t => parseR E P n root t true false) root s fin) ()
        (its ++ finTrace E root path s fin ++ [exits s])
  | .opts path s last keys, its => ∀ n, todo E path + 1 ≤ n → (root ∈ path ∨ ¬ Reaches E s root) →
      (∃ names, E.cfg.optionNames s = some names ∧ ∀ k ∈ keys, k ∈ names) →
      CSim E P root path (processOptions E P (fun t => parseR E P n root t true false) root s last keys) () its

theorem entry_link_meaning {s k t : Str} {last last' : Last} {c : HCall} {before : List (Item δ ω)}
    (h : entry E P root path s last k = .link before c t last') : meaning E root s k = .link t := by
  unfold entry at h
  unfold meaning
  cases hv : E.cfg.value s k with
  | error e => rw [hv] at h; cases h
  | ok v0 =>
    rw [hv] at h
    simp only at h ⊢
    cases hs : shlexSplit (strip k) with
    | error e => rw [hs] at h; cases h
    | ok toks =>
      rw [hs] at h
      cases toks with
      | nil => cases h
      | cons tk ps =>
        simp only at h ⊢
        by_cases hop : OpWord tk
        · rw [if_pos hop] at h ⊢
          cases hp : publicHandler E (opName tk) with
          | some g => cases hq : E.priv (opName tk) <;> (rw [hp, hq] at h; cases h)
          | none =>
            cases hq : E.priv (opName tk) with
            | none => rw [hp, hq] at h; cases h
            | some i =>
              rw [hp, hq] at h
              cases i with
              | user g => cases h
              | use =>
                cases ps with
                | nil => cases h
                | cons a as => cases h; rfl
        · rw [if_neg hop] at h; cases h

theorem csimTask {task : Task} {its : List (Item δ ω)} (h : Trace E P root task its) : CSimTask E P root task its := by
  induction h with
  | @missing path s ho =>
    intro n _ _ _ fin
    have := (CSim.main_missing (P := P) (path := path) (root := root) (fin := fin) (fun t => parseR E P n root t true false) ho).append_missing
      (pre := [enters s]) (finTrace E root path s fin ++ [exits s])
    exact this.congr rfl (by simp)
  | @sec path s keys its ho _ ih =>
    intro n hn hs hr fin
    have hs' : s ∈ E.cfg.allNames := (Cfg.optionNames_isSome _ _).mp (by simp [ho])
    have hlt := todo_cons_lt hs' hs
    refine CSim.main _ ho hs (ih n (by omega) ?_ ⟨keys, ho, fun _ h => h⟩)
    rcases hr with h | h | h
    · exact .inl (by simp [h])
    · exact .inl (by simp [h])
    · exact .inr h
  | nil =>
    intro n _ _ _
    exact CSim.pure' ()
  | @items path s last k ks its last' rest hm _ ih =>
    intro n hn hr ⟨names, ho, hk⟩
    exact (CSim.optionItems _ hm).bind (ih n hn hr ⟨names, ho, fun k h => hk k (by simp [h])⟩)
  | @cyclic path s last k ks before c t last' rest hm hp _ ih =>
    intro n hn hr ⟨names, ho, hk⟩
    refine ((CSim.optionLink (its := [.ev (.cycle s t)]) _ hm (fun _ => rfl) (fun h => absurd hp h)).bind
      (ih n hn hr ⟨names, ho, fun k h => hk k (by simp [h])⟩)).congr rfl (by simp)
  | @link path s last k ks before c t last' sub rest hm hp _ _ ih1 ih2 =>
    intro n hn hr ⟨names, ho, hk⟩
    refine ((CSim.optionLink (its := sub ++ [exits t]) _ hm (fun h => absurd h hp) (fun _ => ?_)).bind
      (ih2 n hn hr ⟨names, ho, fun k h => hk k (by simp [h])⟩)).congr rfl (by simp)
    obtain ⟨n, rfl⟩ : ∃ m, n = m + 1 := ⟨n - 1, by omega⟩
    have hlink : Links E s t := links_of_meaning ho (hk k (by simp)) (entry_link_meaning hm)
    have hr' : root ∈ path ∨ ¬ Reaches E t root := by
      rcases hr with h | h
      · exact .inl h
      · exact .inr (fun hx => h (.step hlink hx))
    have hne : t ≠ root := by
      rintro rfl
      rcases hr' with h | h
      · exact hp h
      · exact h (.refl _)
    have := ih1 n (by omega) hp (by rcases hr' with h | h; exact .inl h; exact .inr (.inr h)) false
    refine this.congr ?_ (by simp [finTrace])
    simp only [Con.parseR, hne, decide_false, Bool.and_false, Bool.false_eq_true, if_false]

theorem csimParse {init fin : Bool} {its : List (Item δ ω)} {n : Nat}
    (ht : ParseTrace E P root init fin its)
    (hn : E.cfg.sectionNames.length + 3 ≤ n)
    (hd : init = true → E.cfg.hasSection E.defaultName = true →
      root = E.defaultName ∨ ¬ Reaches E E.defaultName root) :
    CSim E P root [] (parseR E P n root root init fin) () its := by
  obtain ⟨h1, h2, h3⟩ := ht
  obtain ⟨n, rfl⟩ : ∃ m, n = m + 2 := ⟨n - 2, by omega⟩
  rename_i itsD itsR
  have hroot := csimTask h3 (n + 1) (by rw [todo_nil]; omega) (by simp) (.inr (.inl rfl)) fin
  have hfin : finTrace E root [] root fin =
      (if fin then [.call [root] E.hookFinal (hookCall root py!"handler_finalize")] else []) := by
    simp [finTrace]
  rw [hfin] at hroot
  have hR : parseR E P (n + 2) root root init fin = (do
      if init then
        callHandler E P E.hookInit
          { sectionName := root, sectionRoot := root, handlerName := py!"handler_initialize" }
        if E.cfg.hasSection E.defaultName then
          parseR E P (n + 1) root E.defaultName false false
      parseMain E P (fun t => parseR E P (n + 1) root t true false) root root fin) := by
    simp only [Con.parseR, decide_true, Bool.and_true]
  rw [hR]
  cases init with
  | false =>
    have := h2 (by simp)
    subst this
    simpa using hroot
  | true =>
    simp only [if_true]
    have hi := CSim.call (E := E) (P := P) (root := root) (path := []) E.hookInit (hookCall root py!"handler_initialize")
    by_cases hh : E.cfg.hasSection E.defaultName = true
    · obtain ⟨its, hD, rfl⟩ := h1 ⟨rfl, hh⟩
      have hDs := csimTask hD n (by rw [todo_nil]; omega) (by simp)
        (by rcases hd rfl hh with h | h; exact .inr (.inl h); exact .inr (.inr h)) false
      have hPD : parseR E P (n + 1) root E.defaultName false false =
          parseMain E P (fun t => parseR E P n root t true false) root E.defaultName false := by
        simp [Con.parseR]
      simp only [hh, if_true]
      rw [hPD]
      refine (hi.bind (hDs.bind hroot)).congr rfl ?_
      simp [finTrace]
    · have := h2 (by simp [hh])
      subst this
      simp only [hh]
      exact (hi.bind hroot).congr rfl (by simp)

/-- The object when a parse begins. -/
def begun (E : Env δ ω) (s : Str) (w : CPE.World δ ω) : CPE.World δ ω :=
  { w with processed := [], shared := E.emptyShared, log := [], checked := setAdd w.checked s }

/-- The whole of `parse_section`. -/
theorem parseSection_prints {s : Str} (hs : s ≠ []) {init fin : Bool} {its : List (Item δ ω)} {n : Nat}
    (ht : ParseTrace E P s init fin its)
    (hn : E.cfg.sectionNames.length + 3 ≤ n)
    (hd : init = true → E.cfg.hasSection E.defaultName = true →
      s = E.defaultName ∨ ¬ Reaches E E.defaultName s)
    (w : CPE.World δ ω) (l : List Printed) :
    (parseSection E P n s init fin (w, l)).2.2 = l ++ printed E.debug (banner s py!"START") ++
      (play E P s its { w.toCore with shared := E.emptyShared, checked := setAdd w.checked s }).2.2 ++
      (if (play E P s its { w.toCore with shared := E.emptyShared, checked := setAdd w.checked s }).1 = none then
        printed E.debug (banner s py!"FINISH") else []) := by
  have hb : ∀ (word : Str) (w : CPE.World δ ω) (l : List Printed), sayBanner E s word (w, l) =
      (.ok (), w, l ++ printed E.debug (banner s word)) := by
    intro word w l
    unfold sayBanner
    rw [say_bind E Nat.one_pos, say_bind E Nat.one_pos, say_apply E Nat.one_pos, List.append_assoc l, ← printed_append,
      List.append_assoc l, ← printed_append]
    rfl
  have hm1 : lift (M.modify fun w : CPE.World δ ω => { w with log := [] }) (w, l) = (.ok (), { w with log := [] }, l) := by
    simp [Con.lift, M.modify_apply]
  unfold Con.parseSection
  rw [M.bind_ok hm1, M.bind_ok (hb _ _ _)]
  rw [if_neg hs]
  unfold Con.parseRoot
  have hm2 : ∀ (w : CPE.World δ ω) (l : List Printed), lift (M.modify fun w : CPE.World δ ω =>
      { w with processed := [], shared := E.emptyShared, log := [], checked := setAdd w.checked s }) (w, l) =
      (.ok (), begun E s w, l) := by
    intro w l
    simp [Con.lift, M.modify_apply, begun]
  rw [M.bind_assoc, M.bind_ok (hm2 _ _), M.bind_assoc]
  dsimp only
  obtain ⟨k1, k2, k3, k4⟩ := csimParse ht hn hd (begun E s { w with log := [] }) (l ++ printed E.debug (banner s py!"START")) rfl
  rw [M.bind_def]
  cases hx : parseR E P n s s init fin (begun E s { w with log := [] }, l ++ printed E.debug (banner s py!"START")) with
  | mk o y =>
    obtain ⟨w2, l2⟩ := y
    rw [hx] at k1 k2 k3
    dsimp only at k1 k2 k3
    rw [show (begun E s { w with log := [] }).toCore = { w.toCore with shared := E.emptyShared, checked := setAdd w.checked s } from rfl]
      at k1 k2 k3
    cases hpl : play E P s its { w.toCore with shared := E.emptyShared, checked := setAdd w.checked s } with
    | mk r cl =>
      obtain ⟨c, lp⟩ := cl
      rw [hpl] at k1 k2 k3
      cases r with
      | none =>
        simp only [outcomeV] at k1
        subst k1
        dsimp only
        rw [show ((M.read >>= fun w : World δ ω => pure w.1.shared : M (World δ ω) δ) >>= fun r =>
            sayBanner E s py!"FINISH" >>= fun _ => pure r) (w2, l2) =
          (sayBanner E s py!"FINISH" >>= fun _ => pure w2.shared) (w2, l2) from rfl, M.bind_ok (hb _ _ _)]
        rw [k3]
        simp [pure, M.pure]
      | some e =>
        simp only [outcomeV] at k1
        subst k1
        simp [k3]

theorem trace_opts_total (s : Str) (last : Last) (keys : List Str)
    (h : ∀ t, t ∉ path → ∃ its, Trace E P root (.sec path t) its) :
    ∃ its, Trace E P root (.opts path s last keys) its := by
  induction keys generalizing last with
  | nil => exact ⟨_, .nil⟩
  | cons k ks ih =>
    cases he : entry E P root path s last k with
    | items its last' =>
      obtain ⟨rest, hrest⟩ := ih last'
      exact ⟨_, .items he hrest⟩
    | link before c t last' =>
      obtain ⟨rest, hrest⟩ := ih last'
      by_cases hp : t ∈ path
      · exact ⟨_, .cyclic he hp hrest⟩
      · obtain ⟨sub, hsub⟩ := h t hp
        exact ⟨_, .link he hp hsub hrest⟩

theorem trace_total (E : Env δ ω) (P : Printer δ) (root : Str) (path : List Str) (s : Str) (hp : s ∉ path) :
    ∃ its, Trace E P root (.sec path s) its := by
  generalize hn : todo E path = n
  induction n using Nat.strongRecOn generalizing path s with
  | _ n ih =>
    subst hn
    cases ho : E.cfg.optionNames s with
    | none => exact ⟨_, .missing ho⟩
    | some keys =>
      have hs' : s ∈ E.cfg.allNames := (Cfg.optionNames_isSome _ _).mp (by simp [ho])
      have hlt := todo_cons_lt hs' hp
      obtain ⟨its, h⟩ := trace_opts_total (E := E) (P := P) (root := root) (path := s :: path) s ([], []) keys
        (fun t ht => ih _ hlt _ t ht rfl)
      exact ⟨_, .sec ho h⟩

theorem parseTrace_total (E : Env δ ω) (P : Printer δ) (root : Str) (init fin : Bool) : ∃ its, ParseTrace E P root init fin its := by
  obtain ⟨itsR, hR⟩ := trace_total E P root [] root (by simp)
  obtain ⟨itsD, hD⟩ := trace_total E P root [] E.defaultName (by simp)
  by_cases hx : init = true ∧ E.cfg.hasSection E.defaultName = true
  · exact ⟨_, .mk (fun _ => ⟨_, hD, rfl⟩) (fun h => absurd hx h) hR⟩
  · exact ⟨_, .mk (itsD := []) (fun h => absurd h hx) (fun _ => rfl) hR⟩

theorem trace_det {task : Task} {a b : List (Item δ ω)}
    (ha : Trace E P root task a) (hb : Trace E P root task b) : a = b := by
  induction ha generalizing b with
  | missing ho =>
    cases hb with
    | missing => rfl
    | sec ho' => rw [ho] at ho'; cases ho'
  | sec ho _ ih =>
    cases hb with
    | missing ho' => rw [ho] at ho'; cases ho'
    | sec ho' h' => rw [ho] at ho'; cases ho'; rw [ih h']
  | nil => cases hb; rfl
  | items hm _ ih =>
    cases hb with
    | items hm' h' => rw [hm] at hm'; cases hm'; rw [ih h']
    | cyclic hm' => rw [hm] at hm'; cases hm'
    | link hm' => rw [hm] at hm'; cases hm'
  | cyclic hm hp _ ih =>
    cases hb with
    | items hm' => rw [hm] at hm'; cases hm'
    | cyclic hm' _ h' => rw [hm] at hm'; cases hm'; rw [ih h']
    | link hm' hp' => rw [hm] at hm'; cases hm'; exact absurd hp hp'
  | link hm hp _ _ ih1 ih2 =>
    cases hb with
    | items hm' => rw [hm] at hm'; cases hm'
    | cyclic hm' hp' => rw [hm] at hm'; cases hm'; exact absurd hp' hp
    | link hm' _ h1 h2 => rw [hm] at hm'; cases hm'; rw [ih1 h1, ih2 h2]

theorem parseTrace_det {init fin : Bool} {a b : List (Item δ ω)}
    (ha : ParseTrace E P root init fin a) (hb : ParseTrace E P root init fin b) : a = b := by
  obtain ⟨h1, h2, h3⟩ := ha
  obtain ⟨g1, g2, g3⟩ := hb
  rw [trace_det h3 g3]
  congr 4
  by_cases hx : init = true ∧ E.cfg.hasSection E.defaultName = true
  · obtain ⟨_, hD, rfl⟩ := h1 hx
    obtain ⟨_, gD, rfl⟩ := g1 hx
    rw [trace_det hD gD]
  · rw [h2 hx, g2 hx]

end
end CPE.Con
