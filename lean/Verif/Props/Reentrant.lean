import Verif.Proofs.ReentrantFacts
import Verif.Proofs.BaseClass
/-
C67: handlers that use the object they belong to.
-/
namespace CPE.Props
open CPE CPE.Spec CPE.Re CPE.Re.Spec

/-! ### A class whose handlers look up and parse other sections -/

namespace ReExample

/--
```
[A]
k1: 1
link B:
k2: 2
[B]
k1: x
link A:
link MISSING:
[C]
peek MISSING: 1
peek A:
quiet 9:
k3: 3
[R]
again R:
```
-/
def cfg : Cfg where
  sections :=
    [(py!"A", [(py!"k1", some py!"1"), (py!"link B", some []), (py!"k2", some py!"2")]),
     (py!"B", [(py!"k1", some py!"x"), (py!"link A", some []), (py!"link MISSING", some [])]),
     (py!"C", [(py!"peek MISSING", some py!"1"), (py!"peek A", some []), (py!"quiet 9", some []), (py!"k3", some py!"3")]),
     (py!"R", [(py!"again R", some [])])]

/-- What a handler found under a name: options, or nothing. -/
abbrev Found := List (Str × Option Options)

/-- The bodies are `body`, below; here only whether a method is decorated. -/
def method : Handler (List Str) Found where
  decorated := true
  run _ d o := (.ok (.int 0), d, o)

def env : Env (List Str) Found where
  cfg := cfg
  hookInit := method
  hookFinal := method
  pub op := if op ∈ [py!"link", py!"peek", py!"again", py!"quiet"] then some method else none
  priv op := if op = py!"use" then some .use else none
  emptyShared := []

/-- Remember what was found. -/
def note (t : Str) (x : Option Options) : Prog (List Str) Found :=
  .look fun d o => .put (d ++ [t]) (o ++ [(t, x)]) (.done (.ok (.int 0)))

/-- `handler_link t` looks up section `t`; `handler_peek t` parses it and writes how that went; `handler_quiet`
assigns the exception control level; `handler_again t` parses `t`. -/
def body (c : HCall) : Prog (List Str) Found :=
  match c.params with
  | t :: _ =>
    if c.op = py!"link" then .get t fun r => note t r.toOption
    else if c.op = py!"peek" then
      .parse t true true fun r => .set py!"seen" t (some (if r.toOption.isSome = true then py!"yes" else py!"no")) fun _ => .done (.ok (.int 0))
    else if c.op = py!"quiet" then .level 9 (.done (.ok (.int 0)))
    else .parse t true true fun _ => .done (.ok (.int 0))
  | [] => .done (.ok (.int 0))

def s0 : State (List Str) Found := { Obj.fresh env [] with level := 4 }

/-- `parse_section("A")`: the handler of A looks up B, whose handler looks up A and finds what has been collected
so far. -/
theorem parse_A : (parse env body 5 20 py!"A" true true s0).1 = .ok [py!"B"] ∧
    (parse env body 5 20 py!"A" true true s0).2.self =
      [(py!"A", some [(py!"k1", some py!"1")]), (py!"MISSING", none), (py!"B", some [(py!"k1", some py!"x")])] ∧
    (parse env body 5 20 py!"A" true true s0).2.data =
      [(py!"A", [(py!"k1", some py!"1"), (py!"k2", some py!"2")]), (py!"B", [(py!"k1", some py!"x")])] := by
  refine ⟨?_, ?_, ?_⟩ <;> decide +kernel

/-- `parse_section("C")`: the nested parses, one of them failing, leave the parse of C as it was; the level that the
handler assigned stays. -/
theorem parse_C : (parse env body 5 20 py!"C" true true s0).1 = .ok [] ∧
    (parse env body 5 20 py!"C" true true s0).2.level = 5 ∧
    Dict.get? (parse env body 5 20 py!"C" true true s0).2.data py!"C" = some [(py!"k3", some py!"3")] ∧
    Dict.get? (parse env body 5 20 py!"C" true true s0).2.data py!"seen" =
      some [(py!"MISSING", some py!"no"), (py!"A", some py!"yes")] := by
  refine ⟨?_, ?_, ?_, ?_⟩ <;> decide +kernel

/-- A class of which only `handler_link` does anything, for two names. -/
def links (c : HCall) : Prog (List Str) Found :=
  match c.params with
  | t :: _ => if c.op = py!"link" ∧ t ∈ [py!"A", py!"B"] then .get t fun r => note t r.toOption else .done (.ok (.int 0))
  | [] => .done (.ok (.int 0))

theorem links_looks (c : HCall) : Looks [py!"A", py!"B"] (links c) := by
  unfold links
  split
  · split
    · rename_i h; exact ⟨h.2, fun _ _ _ => trivial⟩
    · trivial
  · trivial

theorem links_spares (s : Str) (c : HCall) : Spares s (links c) := by
  unfold links
  split
  · split
    · exact fun _ _ _ => trivial
    · trivial
  · trivial

/-- The call of `handler_link` in section A. -/
def linkB : HCall :=
  { sectionName := py!"A", sectionRoot := py!"A", rawKey := some py!"link B", rawValue := some [], op := py!"link",
    params := [py!"B"], value := some [], handlerName := py!"handler_link" }

/-- The call of `handler_again` in section R. -/
def againR : HCall :=
  { sectionName := py!"R", sectionRoot := py!"R", rawKey := some py!"again R", rawValue := some [], op := py!"again",
    params := [py!"R"], value := some [], handlerName := py!"handler_again" }

theorem trace_A : ParseTrace env py!"A" true true
    [.call method (hookCall py!"A" py!"handler_initialize"), .visit py!"A", .store py!"k1" (some py!"1"), .call method linkB,
     .store py!"k2" (some py!"2"), .call method (hookCall py!"A" py!"handler_finalize")] :=
  .mk (init := true) (fin := true) (evD := []) (fun h => absurd h.2 (by decide +kernel)) (fun _ => rfl)
    (.sec (keys := [py!"k1", py!"link B", py!"k2"]) rfl
      (.plain (evs := [.store py!"k1" (some py!"1")]) rfl (.plain (evs := [.call method linkB]) rfl
        (.plain (evs := [.store py!"k2" (some py!"2")]) rfl .nil))))

theorem trace_R : ParseTrace env py!"R" true true
    ([.call method (hookCall py!"R" py!"handler_initialize"), .visit py!"R"] ++ .call method againR ::
     [.call method (hookCall py!"R" py!"handler_finalize")]) :=
  .mk (init := true) (fin := true) (evD := []) (fun h => absurd h.2 (by decide +kernel)) (fun _ => rfl)
    (.sec (keys := [py!"again R"]) rfl (.plain (evs := [.call method againR]) rfl .nil))

theorem noDefault : env.cfg.hasSection env.defaultName = true → ∀ s, Reaches env env.defaultName s → s = env.defaultName := by
  intro h
  exact absurd h (by decide +kernel)

end ReExample

section
variable {δ ω : Type} {E : Env δ ω} {P : HCall → Prog δ ω} {n : Nat} {s : Str} {i f : Bool} {st : State δ ω}

/-- C67: what `parse_section` does when its handlers parse, look up and write sections of the same object is what
the rules of `Runs` say: it returns, or raises, in the way and with the effects they give, if nested calls may go
deep enough, and it never ends exactly if they give no result. -/
theorem C67_parse (hn : E.cfg.sectionNames.length + 3 ≤ n)
    (hd : E.cfg.hasSection E.defaultName = true → ∀ s, Reaches E E.defaultName s → s = E.defaultName) :
    (∀ x v', Runs E P (.parse s i f) (viewOf st) (.gives x) v' ↔
      ∃ d, ∀ d', d ≤ d' → (Re.parse E P d' n s i f st).1 = .ok x ∧ viewOf (Re.parse E P d' n s i f st).2 = v') ∧
    (∀ e v', Runs E P (.parse s i f) (viewOf st) (.raises e) v' ↔
      ∃ d, ∀ d', d ≤ d' → (Re.parse E P d' n s i f st).1 = .exc e ∧ viewOf (Re.parse E P d' n s i f st).2 = v') ∧
    ((∀ r v', ¬ Runs E P (.parse s i f) (viewOf st) r v') ↔ ∀ d, (Re.parse E P d n s i f st).1 = .diverge) := by
  have ha := fun d => answers_evalD (P := P) hn hd d s i f st
  have hs := fun d => sound_evalD (E := E) (P := P) d s i f (viewOf st)
  refine ⟨fun x v' => ⟨fun h => ?_, fun h => ?_⟩, fun e v' => ⟨fun h => ?_, fun h => ?_⟩, fun h d => ?_, fun h r v' hr => ?_⟩
  · obtain ⟨d, h⟩ := evals_complete h
    refine ⟨d, fun d' hd => ?_⟩
    have h1 : evalD E P d' s i f (viewOf st) = (.ok x, v') := h d' hd
    have h2 := ha d'
    rw [h1] at h2
    exact h2
  · obtain ⟨d, h⟩ := h
    obtain ⟨h1, h2⟩ := h d (Nat.le_refl _)
    exact (hs d).1 x v' (Prod.ext ((ha d).1.symm.trans h1) ((ha d).2.symm.trans h2))
  · obtain ⟨d, h⟩ := evals_complete h
    refine ⟨d, fun d' hd => ?_⟩
    have h1 : evalD E P d' s i f (viewOf st) = (.exc e, v') := h d' hd
    have h2 := ha d'
    rw [h1] at h2
    exact h2
  · obtain ⟨d, h⟩ := h
    obtain ⟨h1, h2⟩ := h d (Nat.le_refl _)
    exact (hs d).2 e v' (Prod.ext ((ha d).1.symm.trans h1) ((ha d).2.symm.trans h2))
  · rw [(ha d).1]
    cases hx : evalD E P d s i f (viewOf st) with
    | mk o v' =>
      cases o with
      | diverge => rfl
      | ok x => exact absurd ((hs d).1 x v' hx) (h _ _)
      | exc e => exact absurd ((hs d).2 e v' hx) (h _ _)
  · obtain ⟨d, hr'⟩ := evals_complete hr
    have h1 := hr' d (Nat.le_refl _)
    have h2 := (ha d).1.symm.trans (h d)
    rcases parse_result hr with ⟨x, rfl⟩ | ⟨e, rfl⟩
    · have h1 : evalD E P d s i f (viewOf st) = (.ok x, v') := h1
      rw [h1] at h2; cases h2
    · have h1 : evalD E P d s i f (viewOf st) = (.exc e, v') := h1
      rw [h1] at h2; cases h2

/-- Hypotheses met: the parse of A above. -/
example : ∃ v', Runs ReExample.env ReExample.body (.parse py!"A" true true) (viewOf ReExample.s0) (.gives [py!"B"]) v' := by
  exact ⟨_, runs_of_ok (by decide +kernel) ReExample.noDefault ReExample.parse_A.1⟩

/-- The rules also give the exception: the file has no section of that name. -/
example : ∃ v', Runs ReExample.env ReExample.body (.parse py!"MISSING" true true) (viewOf ReExample.s0) (.raises .keyError) v' := by
  have h : (Re.parse ReExample.env ReExample.body 5 20 py!"MISSING" true true ReExample.s0).1 = .exc .keyError := by decide +kernel
  exact ⟨_, runs_of_exc (by decide +kernel) ReExample.noDefault h⟩

/-- C67: a result of any depth is the result: a deeper limit on nested calls cannot change it. -/
theorem C67_depth (hn : E.cfg.sectionNames.length + 3 ≤ n)
    (hd : E.cfg.hasSection E.defaultName = true → ∀ s, Reaches E E.defaultName s → s = E.defaultName) {d : Nat}
    (h : (Re.parse E P d n s i f st).1 ≠ .diverge) :
    ∃ r, Runs E P (.parse s i f) (viewOf st) r (viewOf (Re.parse E P d n s i f st).2) ∧
      ∀ d', (Re.parse E P d' n s i f st).1 ≠ .diverge →
        (Re.parse E P d' n s i f st).1 = (Re.parse E P d n s i f st).1 ∧
        viewOf (Re.parse E P d' n s i f st).2 = viewOf (Re.parse E P d n s i f st).2 := by
  have hs := fun d => sound_evalD (E := E) (P := P) d s i f (viewOf st)
  have key : ∀ d, (Re.parse E P d n s i f st).1 ≠ .diverge →
      (∃ x, (Re.parse E P d n s i f st).1 = .ok x ∧ Runs E P (.parse s i f) (viewOf st) (.gives x) (viewOf (Re.parse E P d n s i f st).2)) ∨
      (∃ e, (Re.parse E P d n s i f st).1 = .exc e ∧ Runs E P (.parse s i f) (viewOf st) (.raises e) (viewOf (Re.parse E P d n s i f st).2)) := by
    intro d h
    obtain ⟨h1, h2⟩ := answers_evalD (P := P) hn hd d s i f st
    rw [h2]
    rw [h1] at h ⊢
    cases hx : evalD E P d s i f (viewOf st) with
    | mk o v' =>
      rw [hx] at h
      cases o with
      | diverge => exact absurd rfl h
      | ok x => exact .inl ⟨x, rfl, (hs d).1 x v' hx⟩
      | exc e => exact .inr ⟨e, rfl, (hs d).2 e v' hx⟩
  rcases key d h with ⟨x, h1, h2⟩ | ⟨e, h1, h2⟩
  · refine ⟨_, h2, fun d' h' => ?_⟩
    rcases key d' h' with ⟨x', g1, g2⟩ | ⟨e', g1, g2⟩
    · obtain ⟨k1, k2⟩ := runs_det h2 g2
      cases k1
      exact ⟨g1.trans h1.symm, k2.symm⟩
    · obtain ⟨k1, k2⟩ := runs_det h2 g2
      cases k1
  · refine ⟨_, h2, fun d' h' => ?_⟩
    rcases key d' h' with ⟨x', g1, g2⟩ | ⟨e', g1, g2⟩
    · obtain ⟨k1, k2⟩ := runs_det h2 g2
      cases k1
    · obtain ⟨k1, k2⟩ := runs_det h2 g2
      cases k1
      exact ⟨g1.trans h1.symm, k2.symm⟩

/-- Hypotheses met: depth 5 is enough for section A. -/
example : (Re.parse ReExample.env ReExample.body 5 20 py!"A" true true ReExample.s0).1 ≠ .diverge := by
  rw [ReExample.parse_A.1]; simp

/-- C67: the rules leave no choice: the same class, file and state give the same result and the same effects. -/
theorem C67_determined {j : Job δ ω} {v v1 v2 : View δ ω} {r1 r2 : Res δ} (h1 : Runs E P j v r1 v1)
    (h2 : Runs E P j v r2 v2) : r1 = r2 ∧ v1 = v2 := runs_det h1 h2

/-- Hypotheses met by any run, such as that of a handler that raises. -/
example (v : View (List Str) ReExample.Found) :
    Runs ReExample.env ReExample.body (.handler (.level 9 (.done (.error .keyError)))) v (.raises .keyError) { v with level := 5 } :=
  .level (.inr (.inl ⟨by decide, rfl⟩)) .raises

/-- C67: if all that handlers do is change the shared data and their attributes, this is the parse of C01. -/
theorem C67_plain (hn : E.cfg.sectionNames.length + 3 ≤ n)
    (hd : E.cfg.hasSection E.defaultName = true → ∀ s, Reaches E E.defaultName s → s = E.defaultName)
    {evs : List (Ev δ ω)} (ht : ParseTrace E s i f evs) (hp : ∀ g c, .call g c ∈ evs → P c = plain (g.run c)) (d : Nat) :
    let old := CPE.parseSection { E with level := st.level } n s i f st.toObj
    let new := Re.parse E P (d + 1) n s i f st
    new.1 = old.1 ∧ new.2.toCore = old.2.toCore ∧ new.2.lastResult = old.2.lastResult ∧ new.2.level = st.level := by
  obtain ⟨h1, h2⟩ := answers_evalD (P := P) hn hd (d + 1) s i f st
  have hrep : ∀ (oc : Oracle δ ω) (l : List (Ev δ ω)) (v : View δ ω), (∀ g c, .call g c ∈ l → P c = plain (g.run c)) →
      replayW E P oc s l v = put (replay { E with level := v.level } s l v.toCore) v := by
    intro oc l
    induction l with
    | nil => exact fun v _ => rfl
    | cons ev l ih =>
      intro v hl
      have hstep : stepW E P oc s ev v = put (evStep { E with level := v.level } s ev v.toCore) v := by
        cases ev with
        | call g c =>
          unfold stepW
          dsimp only
          rw [hl g c (by simp), M.bind_def]
          simp only [plain, evalProg, evStep]
          cases hx : (g.run c v.shared v.self).1 with
          | error e => rfl
          | ok x =>
            rfl
        | _ => exact stepW_quiet (by trivial) v
      unfold replayW at ih ⊢
      rw [M.forEach_cons, M.bind_def, hstep]
      simp only [replay]
      cases hr : evStep { E with level := v.level } s ev v.toCore with
      | mk o c =>
        cases o with
        | none =>
          simp only [put, outcome]
          rw [ih _ (fun g c h => hl g c (by simp [h]))]
          rfl
        | some e => rfl
  have hx : evalD E P (d + 1) s i f (viewOf st) = evalS E P (evalD E P d) s i f (viewOf st) := rfl
  rw [hx] at h1 h2
  unfold evalS at h1 h2
  by_cases hs : s = []
  · subst hs
    rw [if_pos rfl] at h1 h2
    have h3 : CPE.parseSection { E with level := st.level } n [] i f st.toObj = (.exc .valueError, { st.toObj with log := [] }) := by
      unfold CPE.parseSection; rfl
    dsimp only
    rw [h3]
    refine ⟨h1, ?_, ?_, ?_⟩
    · exact congrArg (fun v => v.toCore) h2
    · exact congrArg (fun v => v.last) h2
    · exact congrArg (fun v => v.level) h2
  · rw [if_neg hs, traceOf_eq ht, M.bind_def, hrep _ _ _ hp] at h1 h2
    have ht' : ParseTrace { E with level := st.level } s i f evs :=
      parseTrace_level (E := { E with level := st.level }) (l := E.level) ht
    have hreach : ∀ a b, Reaches { E with level := st.level } a b → Reaches E a b := by
      intro a b h
      induction h with
      | refl s => exact .refl s
      | step h _ ih => exact .step h ih
    obtain ⟨g1, g2, g3⟩ := parseSection_replay (E := { E with level := st.level }) (o := st.toObj) hs ht' hn (by
      intro _ h
      by_cases hr : Reaches { E with level := st.level } E.defaultName s
      · exact .inl (hd h s (hreach _ _ hr))
      · exact .inr hr)
    dsimp only
    rw [g1, g2, g3]
    have hcore : startCore { E with level := st.level } s st.toCore =
      { st.toCore with shared := E.emptyShared, checked := setAdd st.checked s } := rfl
    rw [hcore]
    have hv : (viewOf st).level = st.level := rfl
    dsimp only [viewOf, put] at h1 h2
    cases hr : replay { E with level := st.level } s evs { st.toCore with shared := E.emptyShared, checked := setAdd st.checked s } with
    | mk o c =>
      rw [hr] at h1 h2
      cases o with
      | none =>
        refine ⟨h1, ?_, ?_, ?_⟩
        · exact congrArg (fun v => v.toCore) h2
        · exact congrArg (fun v => v.last) h2
        · exact congrArg (fun v => v.level) h2
      | some e =>
        refine ⟨h1, ?_, ?_, ?_⟩
        · exact congrArg (fun v => v.toCore) h2
        · exact congrArg (fun v => v.last) h2
        · exact congrArg (fun v => v.level) h2

/-- Hypotheses met: section A of the example, with handlers that leave the object alone. -/
example : ∀ g c, .call g c ∈ [Ev.call ReExample.method (hookCall py!"A" py!"handler_initialize"), .visit py!"A",
      .store py!"k1" (some py!"1"), .call ReExample.method ReExample.linkB, .store py!"k2" (some py!"2"),
      .call ReExample.method (hookCall py!"A" py!"handler_finalize")] →
    (fun c => plain (ReExample.method.run c)) c = plain (g.run c) := by
  intro g c h
  simp at h
  rcases h with ⟨rfl, _⟩ | ⟨rfl, _⟩ | ⟨rfl, _⟩ <;> rfl

/-- C67: lookups cannot make a parse run on for ever: if handlers never call `parse_section` themselves and look up
names from some finite list, every parse ends. -/
theorem C67_lookups_end (L : List Str) (hP : ∀ c, Looks L (P c)) (s : Str) (i f : Bool) (v : View δ ω) :
    ∃ r v', Runs E P (.parse s i f) v r v' :=
  parse_end (fun c => looks_end hP _ (P c) (hP c)) s i f v (Nat.le_refl _)

/-- Hypotheses met: the handlers of the example that look up A and B, which look up each other. -/
example : ∀ c, Looks [py!"A", py!"B"] (ReExample.links c) := ReExample.links_looks

/-- C67: what handlers do to other sections does not disturb the section being parsed: if they neither parse nor write
it (they may look it up), its options are the last-wins merge of the unhandled options of the unrolled file. -/
theorem C67_own_options (hP : ∀ c, Spares s (P c)) {evs : List (Ev δ ω)} (ht : ParseTrace E s i f evs) {v v' : View δ ω}
    {x : δ} (h : Runs E P (.parse s i f) v (.gives x) v') (hv : Dict.get? v.data s = none) :
    ∃ d, Dict.get? v'.data s = some d ∧ LastWins (stores evs) d := by
  cases h with
  | @parsed _ _ _ evs' _ v1 hs ht' hr =>
    cases parseTrace_det ht ht'
    have h1 := events_own hP evs hr ((mem_setAdd _ _ _).mpr (.inl rfl))
    have h0 : own { v with shared := E.emptyShared, checked := setAdd v.checked s } s = [] := by
      unfold own
      dsimp only
      rw [hv]; rfl
    rw [h0] at h1
    have h2 : (Dict.get? v1.data s).isSome := by
      rcases trace_root ht with h | h
      · exact events_visit hr h
      · exact absurd hr (events_missing h)
    obtain ⟨d, hd⟩ := Option.isSome_iff_exists.mp h2
    refine ⟨d, hd, lastWins_iff.mpr ?_⟩
    rw [← h1]
    unfold own
    rw [hd]; rfl

/-- Hypotheses met: section A, whose handler looks up B, whose handler looks up A. -/
example : (∀ c, Spares py!"A" (ReExample.links c)) ∧
    (∃ v', Runs ReExample.env ReExample.links (.parse py!"A" true true) (viewOf ReExample.s0) (.gives [py!"B"]) v' ∧
      Dict.get? v'.data py!"A" = some [(py!"k1", some py!"1"), (py!"k2", some py!"2")]) := by
  refine ⟨ReExample.links_spares _, ?_⟩
  have h1 : (Re.parse ReExample.env ReExample.links 5 20 py!"A" true true ReExample.s0).1 = .ok [py!"B"] := by decide +kernel
  have h2 : Dict.get? (Re.parse ReExample.env ReExample.links 5 20 py!"A" true true ReExample.s0).2.data py!"A" =
    some [(py!"k1", some py!"1"), (py!"k2", some py!"2")] := by decide +kernel
  exact ⟨_, runs_of_ok (by decide +kernel) ReExample.noDefault h1, by rw [viewOf_data]; exact h2⟩

/-- C67: the shared data belong to the parse: whatever a handler parses, looks up or writes in between, it finds them
as it left them. -/
theorem C67_shared_kept {p : Prog δ ω} (hp : NoPut p) {v v' : View δ ω} {r : Res δ} (h : Runs E P (.handler p) v r v') :
    v'.shared = v.shared := runs_noPut h p rfl hp

/-- Hypotheses met: a handler that parses one section and looks up another. -/
example : NoPut (.parse py!"B" true true fun _ => .get py!"A" fun _ => .done (.ok (.int 0)) : Prog (List Str) ReExample.Found) :=
  fun _ _ => trivial

/-- C67: sections once marked as parsed stay marked, and sections that have data keep having data. -/
theorem C67_marks {j : Job δ ω} {v v' : View δ ω} {r : Res δ} (h : Runs E P j v r v') (t : Str) :
    (t ∈ v.checked → t ∈ v'.checked) ∧ ((Dict.get? v.data t).isSome → (Dict.get? v'.data t).isSome) :=
  ⟨runs_grows h, runs_has h⟩

/-- C67: looking up a section that has been parsed, or is being parsed at any depth (it is marked when its parse
starts, and stays so by C67_marks), starts no parse: the handler gets what has been collected so far and goes on. -/
theorem C67_lookup_known {k : Except PyExc Options → Prog δ ω} {v v' : View δ ω} {r : Res δ} (hs : s ∈ v.checked) :
    Runs E P (.handler (.get s k)) v r v' ↔
      Runs E P (.handler (k (match Dict.get? v.data s with | some d => .ok d | none => .error .keyError))) v r v' := by
  constructor
  · intro h
    cases h with
    | gets _ h => exact h
    | getParses hn _ _ => exact absurd hs hn
    | getFails hn _ _ => exact absurd hs hn
  · exact fun h => .gets hs h

/-- Hypotheses met: the handler of B in the example, called by the handler of A, finds one option of A
(`ReExample.parse_A`). -/
example : py!"A" ∈ ({ viewOf ReExample.s0 with checked := setAdd [] py!"A" } : View (List Str) ReExample.Found).checked := by
  decide +kernel

/-- C67: there is no guard against a handler that starts the same parse again: if the parse always gets as far as
that handler, it never ends. -/
theorem C67_same_again (hs : s ≠ []) {a b : List (Ev δ ω)} {g : Handler δ ω} {hc : HCall} {k : Except PyExc δ → Prog δ ω}
    (ht : ParseTrace E s i f (a ++ .call g hc :: b)) (hk : P hc = .parse s i f k)
    (ha : ∀ v, ∃ v1, Runs E P (.events s a) v .fine v1) (v : View δ ω) : ∀ r v', ¬ Runs E P (.parse s i f) v r v' := by
  intro r v' h
  obtain ⟨d, h'⟩ := evals_complete h
  have h1 := h' d (Nat.le_refl _)
  have h2 := again_diverges hs ht hk ha d v
  rcases parse_result h with ⟨x, rfl⟩ | ⟨e, rfl⟩
  · have h1 : evalD E P d s i f v = (.ok x, v') := h1
    rw [h1] at h2; cases h2
  · have h1 : evalD E P d s i f v = (.exc e, v') := h1
    rw [h1] at h2; cases h2

/-- Hypotheses met: section R of the example. -/
example (v : View (List Str) ReExample.Found) :
    ∀ r v', ¬ Runs ReExample.env ReExample.body (.parse py!"R" true true) v r v' := by
  refine C67_same_again (by decide) ReExample.trace_R (k := fun _ => .done (.ok (.int 0))) rfl (fun v => ?_) v
  exact ⟨_, .call (c := v.toCore) .returns rfl (.event trivial rfl .nil)⟩

end
end CPE.Props
