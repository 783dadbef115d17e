import Verif.Spec.Journey
import Verif.Props.Gather
import Verif.Props.SetEnvLife
import Verif.Props.Literal
import Verif.Proofs.EventText
/-
Gathering the options of a configuration gives the list of actions that SetEnvironment makes of it.
-/
namespace CPE.SetEnv
open CPE.Spec CPE.SetEnv.Spec CPE.Props

section
variable {c : Cfg} {st : Settings} {ok : Str → Prop} {root s : Str} {path : List Str} {os ws : List (Str × Option Str)}

/-! ### Which operations there are -/

theorem keyWords_det {k : Str} {ws ws' : List Str} (h : Words k ws) (h' : Words k ws') : ws = ws' := by
  have h1 := (C31_split_iff_words _ _).2 h
  rw [(C31_split_iff_words _ _).2 h'] at h1
  injection h1 with h1
  exact h1.symm

theorem operates_det {k op op' : Str} {ps ps' : List Str} (h : Operates k op ps) (h' : Operates k op' ps') : op = op' ∧ ps = ps' := by
  obtain ⟨w, h1, _, rfl⟩ := h
  obtain ⟨w', h1', _, rfl⟩ := h'
  have := keyWords_det h1 h1'
  injection this with e1 e2
  exact ⟨by rw [e1], e2⟩

theorem handled_ops {op : Str} (h : op ∈ removers ++ envvarActions ++ moduleActions) :
    (∃ hd, privMethod op = some (.user hd)) ∧ op ≠ py!"initialize" ∧ op ≠ py!"finalize" := by
  have : op ∈ [py!"envvar_remove", py!"module_remove", py!"envvar_set", py!"envvar_set_if_empty", py!"envvar_append",
      py!"envvar_prepend", py!"envvar_unset", py!"envvar_remove_substr", py!"envvar_remove_path_entry",
      py!"envvar_find_in_path", py!"envvar_assert_not_empty", py!"module_load", py!"module_purge", py!"module_swap",
      py!"module_unload", py!"module_use"] := h
  simp only [List.mem_cons, List.not_mem_nil, or_false] at this
  rcases this with rfl | rfl | rfl | rfl | rfl | rfl | rfl | rfl | rfl | rfl | rfl | rfl | rfl | rfl | rfl | rfl <;>
    exact ⟨⟨_, rfl⟩, by decide, by decide⟩

theorem unhandled_ops {op : Str} (h : op ∉ baseNames ++ removers ++ envvarActions ++ moduleActions) :
    privMethod op = none ∧ op ≠ py!"initialize" ∧ op ≠ py!"finalize" := by
  have hx : op ∉ [py!"use", py!"initialize", py!"finalize", py!"envvar_remove", py!"module_remove", py!"envvar_set",
      py!"envvar_set_if_empty", py!"envvar_append", py!"envvar_prepend", py!"envvar_unset", py!"envvar_remove_substr",
      py!"envvar_remove_path_entry", py!"envvar_find_in_path", py!"envvar_assert_not_empty", py!"module_load",
      py!"module_purge", py!"module_swap", py!"module_unload", py!"module_use"] := h
  simp only [List.mem_cons, List.not_mem_nil, or_false, not_or] at hx
  obtain ⟨h1, h2, h3, h4, h5, h6, h7, h8, h9, h10, h11, h12, h13, h14, h15, h16, h17, h18, h19⟩ := hx
  refine ⟨?_, h2, h3⟩
  unfold privMethod
  rw [if_neg h1, if_neg h8, if_neg h14, if_neg h13, if_neg h9, if_neg h4, if_neg h12, if_neg h11, if_neg h6, if_neg h7,
    if_neg h10, if_neg h15, if_neg h16, if_neg h5, if_neg h17, if_neg h18, if_neg h19]

/-! ### What an option means -/

theorem se_store {k : Str} {v u : Option Str} (hk : Tight k) (hf : Foreign (k, u))
    (hr : c.rawValue s k = some v) (hv : ShownAs c s v u) : meaning (env c st) root s k = .events [.store k u] := by
  obtain ⟨x, hx, hu⟩ := shown_value hr hv
  obtain ⟨w, ps, hw, h⟩ := hf
  unfold meaning
  rw [show (env c st).cfg = c from rfl, hx]
  dsimp only
  rw [strip_tight hk, (C31_split_iff_words _ _).2 hw]
  dsimp only
  by_cases ho : OpWord w
  · obtain ⟨h1, h2, h3⟩ := unhandled_ops (h.resolve_left fun h => h ho)
    have hp : publicHandler (env c st) (opName w) = none := by
      unfold publicHandler
      rw [if_neg h2, if_neg h3]; rfl
    have hq : (env c st).priv (opName w) = none := h1
    rw [if_pos ho, hp, hq, hu]
  · rw [if_neg ho, hu]

theorem se_call {k op : Str} {ps : List Str} {v u : Option Str} (hk : Tight k) (ho : Operates k op ps)
    (hop : op ∈ removers ++ envvarActions ++ moduleActions) (hr : c.rawValue s k = some v) (hv : ShownAs c s v u) :
    ∃ hd hc, meaning (env c st) root s k = .events [.call hd hc] ∧ Proper (hd, hc) ∧ hc.op = op ∧ hc.params = ps ∧ hc.value = u := by
  obtain ⟨x, hx, hu⟩ := shown_value hr hv
  obtain ⟨w, hw, how, rfl⟩ := ho
  obtain ⟨⟨hd, h1⟩, h2, h3⟩ := handled_ops hop
  have hp : publicHandler (env c st) (opName w) = none := by
    unfold publicHandler
    rw [if_neg h2, if_neg h3]; rfl
  have hq : (env c st).priv (opName w) = some (.user hd) := h1
  refine ⟨hd, { sectionName := s, sectionRoot := root, rawKey := some k, rawValue := u, op := opName w,
                params := ps, value := u, handlerName := py!"_handler_" ++ opName w }, ?_, h1, rfl, rfl, rfl⟩
  unfold meaning
  rw [show (env c st).cfg = c from rfl, hx]
  dsimp only
  rw [strip_tight hk, (C31_split_iff_words _ _).2 hw]
  dsimp only
  rw [if_pos how, hp, hq, hu]

theorem se_link {k t : Str} {more : List Str} {v u : Option Str} (hk : Tight k) (hw : Words k (py!"use" :: t :: more))
    (hr : c.rawValue s k = some v) (hv : ShownAs c s v u) : meaning (env c st) root s k = .link t := by
  obtain ⟨x, hx, hu⟩ := shown_value hr hv
  unfold meaning
  rw [show (env c st).cfg = c from rfl, hx]
  dsimp only
  rw [strip_tight hk, (C31_split_iff_words _ _).2 hw]
  dsimp only
  rw [if_pos (by decide)]
  rfl

/-! ### Options and the calls they make -/

/-- An option that SetEnvironment takes without complaint, or does not take. -/
def Fit (o : Str × Option Str) : Prop := Foreign o ∨ Remover o ∨ ∃ a, Asks o a

/-- `Made ws cs`: the options `ws` make the calls `cs`. -/
inductive Made : List (Str × Option Str) → List HCall → Prop
  | nil : Made [] []
  | skip {o os cs} : Foreign o → Made os cs → Made (o :: os) cs
  | call {k v op ps c os cs} : Operates k op ps → op ∈ removers ++ envvarActions ++ moduleActions → c.op = op → c.params = ps →
      c.value = v → (op ∈ moduleActions ∨ ps ≠ []) → Made os cs → Made ((k, v) :: os) (c :: cs)

theorem made_append {a b : List (Str × Option Str)} {x y : List HCall} (h : Made a x) (h' : Made b y) : Made (a ++ b) (x ++ y) := by
  induction h with
  | nil => exact h'
  | skip h _ ih => exact .skip h ih
  | call h1 h2 h3 h4 h5 h6 _ ih => exact .call h1 h2 h3 h4 h5 h6 ih

theorem plan_fit {l : List Action} (h : Plan ws l) : ∀ o ∈ ws, Fit o := by
  induction h with
  | nil => simp
  | other h _ ih =>
    intro o ho
    rcases List.mem_cons.1 ho with rfl | ho
    · exact h.elim .inl fun h => .inr (.inl h)
    · exact ih o ho
  | dropped h _ _ _ ih =>
    intro o ho
    rcases List.mem_cons.1 ho with rfl | ho
    · exact .inr (.inr ⟨_, h⟩)
    · exact ih o ho
  | kept h _ _ ih =>
    intro o ho
    rcases List.mem_cons.1 ho with rfl | ho
    · exact .inr (.inr ⟨_, h⟩)
    · exact ih o ho

/-- An option that is taken names an operation, with the name it needs. -/
theorem fit_operates {o : Str × Option Str} (h : Fit o) :
    Foreign o ∨ ∃ op ps, Operates o.1 op ps ∧ op ∈ removers ++ envvarActions ++ moduleActions ∧ (op ∈ moduleActions ∨ ps ≠ []) := by
  rcases h with h | ⟨op, n, ps, h1, h2⟩ | ⟨a, h⟩
  · exact .inl h
  · exact .inr ⟨op, _, h2, by simp [h1], .inr (by simp)⟩
  · cases h with
    | envvar h1 h2 _ => exact .inr ⟨_, _, h1, by simp [h2], .inr (by simp)⟩
    | check h1 => exact .inr ⟨_, _, h1, by decide, .inr (by simp)⟩
    | module h1 h2 => exact .inr ⟨_, _, h1, by simp [h2], .inl h2⟩

theorem foreign_not {k op : Str} {ps : List Str} {v : Option Str} (h : Foreign (k, v)) (h' : Operates k op ps)
    (hop : op ∈ removers ++ envvarActions ++ moduleActions) : False := by
  obtain ⟨w, qs, h1, h2⟩ := h
  obtain ⟨w', h1', h3, rfl⟩ := h'
  have := keyWords_det h1 h1'
  injection this with e1 _
  subst e1
  rcases h2 with h2 | h2
  · exact h2 h3
  · apply h2
    simp only [List.append_assoc, List.mem_append] at hop ⊢
    exact .inr hop

theorem asks_yields {k op : Str} {ps : List Str} {v : Option Str} {hc : HCall} {a : Action} (ho : Operates k op ps)
    (h1 : hc.op = op) (h2 : hc.params = ps) (h3 : hc.value = v) (h : Asks (k, v) a) : yields hc = some a := by
  unfold yields
  cases h with
  | @envvar _ _ op' n qs g1 g2 g3 =>
    obtain ⟨rfl, rfl⟩ := operates_det ho g1
    rw [if_pos (h1 ▸ g2), h2]
    dsimp only
    rw [if_neg (h1 ▸ g3), h1, h3]
  | check g1 =>
    obtain ⟨rfl, rfl⟩ := operates_det ho g1
    rw [if_pos (by rw [h1]; decide), h2]
    dsimp only
    rw [if_pos h1, h1, h3]
  | module g1 g2 =>
    obtain ⟨rfl, rfl⟩ := operates_det ho g1
    rw [if_neg (by
      rw [h1]; intro h
      have : ∀ x ∈ moduleActions, x ∉ envvarActions := by decide
      exact this _ g2 h), if_pos (h1 ▸ g2), h1, h2, h3]

theorem asks_of_yields {k op : Str} {ps : List Str} {v : Option Str} {hc : HCall} {a : Action} (ho : Operates k op ps)
    (h1 : hc.op = op) (h2 : hc.params = ps) (h3 : hc.value = v) (h : yields hc = some a) : Asks (k, v) a := by
  unfold yields at h
  rw [h1, h2, h3] at h
  by_cases hc1 : op ∈ envvarActions
  · rw [if_pos hc1] at h
    cases ps with
    | nil => cases h
    | cons n ps =>
      dsimp only at h
      by_cases hc2 : op = py!"envvar_assert_not_empty"
      · subst hc2; rw [if_pos rfl] at h; cases h; exact .check ho
      · rw [if_neg hc2] at h; cases h; exact .envvar ho hc1 hc2
  · rw [if_neg hc1] at h
    by_cases hc2 : op ∈ moduleActions
    · rw [if_pos hc2] at h; cases h; exact .module ho hc2
    · rw [if_neg hc2] at h; cases h

theorem drops_iff {k op : Str} {ps : List Str} {v : Option Str} {hc : HCall} {a : Action} (ho : Operates k op ps)
    (h1 : hc.op = op) (h2 : hc.params = ps) : Drops (k, v) a ↔ Removes hc a := by
  constructor
  · intro h
    cases h with
    | envvar g => obtain ⟨rfl, rfl⟩ := operates_det ho g; exact .envvar h1 (by rw [h2]; rfl)
    | module g => obtain ⟨rfl, rfl⟩ := operates_det ho g; exact .module h1 (by rw [h2]; rfl)
    | mention g => obtain ⟨rfl, rfl⟩ := operates_det ho g; exact .mention h1 (by rw [h2]; rfl)
  · have split : ∀ {n : Str}, hc.params.head? = some n → ∃ qs, ps = n :: qs := by
      intro n hn
      rw [h2] at hn
      cases ps with
      | nil => cases hn
      | cons m qs => cases hn; exact ⟨qs, rfl⟩
    intro h
    cases h with
    | envvar g1 g2 =>
      obtain ⟨qs, rfl⟩ := split g2
      rw [h1] at g1; subst g1
      exact .envvar ho
    | module g1 g2 =>
      obtain ⟨qs, rfl⟩ := split g2
      rw [h1] at g1; subst g1
      exact .module ho
    | mention g1 g2 =>
      obtain ⟨qs, rfl⟩ := split g2
      rw [h1] at g1; subst g1
      exact .mention ho

theorem foreign_drops {o : Str × Option Str} {a : Action} (h : Foreign o) : ¬ Drops o a := by
  intro hd
  cases hd with
  | envvar g => exact foreign_not h g (by decide)
  | module g => exact foreign_not h g (by decide)
  | mention g => exact foreign_not h g (by decide)

theorem foreign_asks {o : Str × Option Str} {a : Action} (h : Foreign o) : ¬ Asks o a := by
  intro hd
  cases hd with
  | envvar g g2 _ => exact foreign_not h g (by simp [g2])
  | check g => exact foreign_not h g (by decide)
  | module g g2 => exact foreign_not h g (by simp [g2])

/-- An option of the list takes an action out exactly if a call does. -/
theorem made_drops {cs : List HCall} (h : Made ws cs) (a : Action) : (∃ o ∈ ws, Drops o a) ↔ ∃ hc ∈ cs, Removes hc a := by
  induction h with
  | nil => simp
  | @skip o os cs h _ ih =>
    rw [← ih]
    constructor
    · rintro ⟨o', ho, hd⟩
      rcases List.mem_cons.1 ho with rfl | ho
      · exact absurd hd (foreign_drops h)
      · exact ⟨o', ho, hd⟩
    · rintro ⟨o', ho, hd⟩; exact ⟨o', List.mem_cons_of_mem _ ho, hd⟩
  | @call k v op ps hc os cs h1 h2 h3 h4 h5 h6 _ ih =>
    simp only [List.mem_cons, exists_eq_or_imp]
    rw [ih, drops_iff h1 h3 h4]

/-- The plan is the list of actions of the calls. -/
theorem made_plan {cs : List HCall} {l : List Action} (h : Made ws cs) (hp : Plan ws l) : ActionList cs l := by
  induction h generalizing l with
  | nil => cases hp; exact .nil
  | skip h _ ih =>
    cases hp with
    | other _ hp => exact ih hp
    | dropped g => exact absurd g (foreign_asks h)
    | kept g => exact absurd g (foreign_asks h)
  | @call k v op ps hc os cs h1 h2 h3 h4 h5 h6 hm ih =>
    cases hp with
    | other g hp =>
      refine .skip ?_ (ih hp)
      cases hy : yields hc with
      | none => rfl
      | some a =>
        exfalso
        have ha := asks_of_yields h1 h3 h4 h5 hy
        rcases g with g | ⟨op', n, qs, g1, g2⟩
        · exact foreign_asks g ha
        · obtain ⟨rfl, rfl⟩ := operates_det h1 g2
          have : ∀ x ∈ removers, x ∉ envvarActions ∧ x ∉ moduleActions := by decide
          cases ha with
          | envvar k1 k2 _ => obtain ⟨rfl, _⟩ := operates_det h1 k1; exact (this _ g1).1 k2
          | check k1 => obtain ⟨rfl, _⟩ := operates_det h1 k1; exact (this _ g1).1 (by decide)
          | module k1 k2 => obtain ⟨rfl, _⟩ := operates_det h1 k1; exact (this _ g1).2 k2
    | dropped g g1 g2 hp =>
      obtain ⟨hc', k1, k2⟩ := (made_drops hm _).1 ⟨_, g1, g2⟩
      exact .removed (asks_yields h1 h3 h4 h5 g) k1 k2 (ih hp)
    | kept g g1 hp =>
      exact .kept (asks_yields h1 h3 h4 h5 g) (fun hc' k1 k2 => by
        obtain ⟨o', k3, k4⟩ := (made_drops hm _).2 ⟨_, k1, k2⟩
        exact g1 o' k3 k4) (ih hp)

/-! ### Unrolling -/

/-- An event of a parse that goes well. -/
def Smooth : Ev Shared Actions → Prop
  | .visit _ => True
  | .store _ _ => True
  | .cycle _ _ => True
  | .call h hc => Proper (h, hc) ∧ (hc.op ∈ moduleActions ∨ hc.params ≠ [])
  | _ => False

theorem calls_cons_of {h : Handler Shared Actions} {hc : HCall} {evs : List (Ev Shared Actions)} :
    (calls (.call h hc :: evs)).map Prod.snd = hc :: (calls evs).map Prod.snd := rfl

theorem gathered_tight (h : Gathers c ok path s os ws) : ∀ kv ∈ os, Tight kv.1 := by
  induction h with
  | nil => simp
  | own hk _ _ _ _ _ _ ih =>
    intro kv hm
    rcases List.mem_cons.1 hm with rfl | hm
    · exact hk
    · exact ih kv hm
  | hook hk _ _ _ _ ih =>
    intro kv hm
    rcases List.mem_cons.1 hm with rfl | hm
    · exact hk
    · exact ih kv hm
  | use hk _ _ _ _ _ _ _ _ ih =>
    intro kv hm
    rcases List.mem_cons.1 hm with rfl | hm
    · exact hk
    · exact ih kv hm
  | again hk _ _ _ _ ih =>
    intro kv hm
    rcases List.mem_cons.1 hm with rfl | hm
    · exact hk
    · exact ih kv hm

theorem gathers_calls (hone : c.Once) (hh : Hookless c) (h : Gathers c ok path s os ws) : (∀ o ∈ ws, Fit o) →
    (∀ kv ∈ os, c.rawValue s kv.1 = some kv.2) → (∀ kv ∈ os, ∀ w, Begins kv.1 w → w ≠ py!"initialize" ∧ w ≠ py!"finalize") →
    ∃ evs, Unrolls (env c st) root (.opts path s (os.map Prod.fst)) evs ∧ Made ws ((calls evs).map Prod.snd) ∧
      (∀ x ∈ evs, Smooth x) ∧ ∀ t ∈ visits evs, ok t := by
  induction h with
  | nil => exact fun _ _ _ => ⟨[], .nil, .nil, by simp, by simp [visits]⟩
  | @own path s k v w u os ws hk hw h1 h2 h3 hv _ ih =>
    intro hfit hr hb
    obtain ⟨evs, g1, g2, g3, g4⟩ := ih (fun o ho => hfit o (by simp [ho])) (fun kv hm => hr kv (by simp [hm]))
      (fun kv hm => hb kv (by simp [hm]))
    rcases fit_operates (hfit (k, u) List.mem_cons_self) with hf | ⟨op, ps, f1, f2, f3⟩
    · refine ⟨_, .plain (se_store hk hf (hr _ List.mem_cons_self) hv) g1, .skip hf g2, ?_, by simpa [visits] using g4⟩
      intro x hx
      rcases List.mem_cons.1 hx with rfl | hx
      · trivial
      · exact g3 x hx
    · obtain ⟨hd, hc, m1, m2, m3, m4, m5⟩ := se_call (st := st) (root := root) hk f1 f2 (hr _ List.mem_cons_self) hv
      refine ⟨_, .plain m1 g1, .call f1 f2 m3 m4 m5 f3 g2, ?_, by simpa [visits] using g4⟩
      intro x hx
      rcases List.mem_cons.1 hx with rfl | hx
      · exact ⟨m2, by rw [m3, m4]; exact f3⟩
      · exact g3 x hx
  | @hook path s k v w u os ws hk hw h2 hv _ ih =>
    intro _ _ hb
    have := hb (k, v) List.mem_cons_self w hw
    rcases h2 with h | h
    · exact absurd h this.1
    · exact absurd h this.2
  | @use path s k v t more u os os' ws ws' hk hw hv hp hok hbody _ _ ih1 ih2 =>
    intro hfit hr hb
    obtain ⟨hn, hraw⟩ := body_raw hone hbody
    obtain ⟨sub, f1, f2, f3, f4⟩ := ih1 (fun o ho => hfit o (by simp [ho])) hraw (by
      intro kv hm w hw
      refine hh t os' hbody kv hm (strip kv.1) w (CPE.Notes.trimmed_strip _) ?_
      have : Tight kv.1 := gathered_tight ‹Gathers c ok (t :: path) t os' ws'› kv hm
      rw [strip_tight this]; exact hw)
    obtain ⟨evs, g1, g2, g3, g4⟩ := ih2 (fun o ho => hfit o (by simp [ho])) (fun kv hm => hr kv (by simp [hm]))
      (fun kv hm => hb kv (by simp [hm]))
    refine ⟨_, .link (se_link hk hw (hr _ List.mem_cons_self) hv) hp (.sec hn f1) g1, ?_, ?_, ?_⟩
    · rw [calls_append, List.map_append]
      exact made_append f2 g2
    · intro x hx
      rcases List.mem_append.1 hx with hx | hx
      · rcases List.mem_cons.1 hx with rfl | hx
        · trivial
        · exact f3 x hx
      · exact g3 x hx
    · intro x hx
      rw [visits_append] at hx
      rcases List.mem_append.1 hx with hx | hx
      · rcases List.mem_cons.1 hx with rfl | hx
        · exact hok
        · exact f4 x hx
      · exact g4 x hx
  | @again path s k v t more u os ws hk hw hv hp _ ih =>
    intro hfit hr hb
    obtain ⟨evs, g1, g2, g3, g4⟩ := ih hfit (fun kv hm => hr kv (by simp [hm])) (fun kv hm => hb kv (by simp [hm]))
    refine ⟨_, .cyclic (se_link hk hw (hr _ List.mem_cons_self) hv) hp g1, g2, ?_, by simpa [visits] using g4⟩
    intro x hx
    rcases List.mem_cons.1 hx with rfl | hx
    · trivial
    · exact g3 x hx

theorem unrolls_cons {k : Str} {ks : List Str} {a b : List (Ev Shared Actions)}
    (ha : Unrolls (env c st) root (.opts path s [k]) a) (hb : Unrolls (env c st) root (.opts path s ks) b) :
    Unrolls (env c st) root (.opts path s (k :: ks)) (a ++ b) := by
  cases ha with
  | plain hm hr => cases hr; rw [List.append_nil]; exact .plain hm hb
  | cyclic hm ht hr => cases hr; exact .cyclic hm ht hb
  | link hm ht hs hr => cases hr; rw [List.append_nil]; exact .link hm ht hs hb

theorem body_hookless (hh : Hookless c) {t : Str} (hb : BodyOf c t os) {kv : Str × Option Str} (hm : kv ∈ os) (ht : Tight kv.1) :
    ∀ w, Begins kv.1 w → w ≠ py!"initialize" ∧ w ≠ py!"finalize" := by
  intro w hw
  refine hh t os hb kv hm (strip kv.1) w (CPE.Notes.trimmed_strip _) ?_
  rw [strip_tight ht]; exact hw

/-- An event that ends a parse of the class, whatever the level. -/
inductive Ends : Ev Shared Actions → PyExc → Prop
  | missing (t) : Ends (.missing t) .keyError
  | nameless {h hc} : Proper (h, hc) → hc.op ∈ removers ++ envvarActions → hc.params = [] → Ends (.call h hc) .indexError

theorem stuck_unrolls (hone : c.Once) (hh : Hookless c) {e : PyExc} (h : Stuck c path s os e) :
    (∀ kv ∈ os, c.rawValue s kv.1 = some kv.2) →
    (∀ kv ∈ os, Tight kv.1 → ∀ w, Begins kv.1 w → w ≠ py!"initialize" ∧ w ≠ py!"finalize") →
    ∃ a ev b, Unrolls (env c st) root (.opts path s (os.map Prod.fst)) (a ++ ev :: b) ∧ Ends ev e ∧ ∀ x ∈ a, Smooth x := by
  have rest : ∀ path s ks, ∃ evs, Unrolls (env c st) root (.opts path s ks) evs := fun path s ks =>
    unrolls_opts_total s ks fun t ht => unrolls_total _ _ _ _ ht
  induction h with
  | @missing path s k v t more u os hk hw hv hp hb =>
    intro hr _
    obtain ⟨evs, g⟩ := rest path s (os.map Prod.fst)
    have := Unrolls.link (se_link (st := st) (root := root) hk hw (hr _ List.mem_cons_self) hv) hp (.missing (body_none hb)) g
    exact ⟨[], _, evs, this, .missing t, by simp⟩
  | @nameless path s k v u os hk hv hno =>
    intro hr _
    obtain ⟨evs, g⟩ := rest path s (os.map Prod.fst)
    obtain ⟨op, h1, h2⟩ := hno
    obtain ⟨hd, hc, m1, m2, m3, m4, _⟩ := se_call (st := st) (root := root) hk h2 (List.mem_append_left _ h1)
      (hr _ List.mem_cons_self) hv
    have := Unrolls.plain m1 g
    exact ⟨[], _, evs, this, .nameless m2 (m3 ▸ h1) m4, by simp⟩
  | @inside path s k v t more u os os' e hk hw hv hp hb _ ih =>
    intro hr _
    obtain ⟨hn, hraw⟩ := body_raw hone hb
    obtain ⟨a, ev, b, g1, g2, g3⟩ := ih hraw fun kv hm ht => body_hookless hh hb hm ht
    obtain ⟨evs, g⟩ := rest path s (os.map Prod.fst)
    refine ⟨.visit t :: a, ev, b ++ evs, ?_, g2, ?_⟩
    · have := Unrolls.link (se_link (st := st) (root := root) hk hw (hr _ List.mem_cons_self) hv) hp (.sec hn g1) g
      simpa using this
    · intro x hx
      rcases List.mem_cons.1 hx with rfl | hx
      · trivial
      · exact g3 x hx
  | @later path s o os ws l e hg hpl _ ih =>
    intro hr hb
    obtain ⟨a, ev, b, g1, g2, g3⟩ := ih (fun kv hm => hr kv (by simp [hm])) fun kv hm => hb kv (by simp [hm])
    obtain ⟨evs, f1, _, f3, _⟩ := gathers_calls (st := st) (root := root) hone hh hg (plan_fit hpl)
      (fun kv hm => hr kv (by rw [List.mem_singleton] at hm; simp [hm]))
      (fun kv hm => hb kv (by rw [List.mem_singleton] at hm; simp [hm]) (gathered_tight hg kv hm))
    refine ⟨evs ++ a, ev, b, ?_, g2, ?_⟩
    · have := unrolls_cons f1 g1
      simpa using this
    · intro x hx
      rcases List.mem_append.1 hx with hx | hx
      · exact f3 x hx
      · exact g3 x hx

/-! ### Replaying -/

theorem proper_ok {h : Handler Shared Actions} {hc : HCall} (hp : Proper (h, hc)) (hf : hc.op ∈ moduleActions ∨ hc.params ≠ [])
    (l : List Action) (a : Actions) : (h.run hc (some l) a).1 = .ok (.int 0) ∧ h.decorated = true := by
  have head : hc.op ∉ moduleActions → ∃ n ps, hc.params = n :: ps := by
    intro h
    have := hf.resolve_left h
    cases hps : hc.params with
    | nil => exact absurd hps this
    | cons n ps => exact ⟨n, ps, rfl⟩
  rcases privMethod_cases hp with ⟨h1, h2, rfl⟩ | ⟨h1, rfl⟩ | ⟨h1, rfl⟩ | ⟨h1, rfl⟩ | ⟨h1, rfl⟩
  · obtain ⟨n, ps, he⟩ := head (by
      have : ∀ x ∈ envvarActions, x ∉ moduleActions := by decide
      exact this _ h1)
    refine ⟨?_, rfl⟩
    show (helperEnvvar hc hc.value (some l) a).1 = _
    unfold helperEnvvar
    rw [he]
  · obtain ⟨n, ps, he⟩ := head (by rw [h1]; decide)
    refine ⟨?_, rfl⟩
    show (helperEnvvar hc (some (hc.value.getD [])) (some l) a).1 = _
    unfold helperEnvvar
    rw [he]
  · obtain ⟨n, ps, he⟩ := head (by rw [h1]; decide)
    refine ⟨?_, rfl⟩
    unfold handlerEnvvarRemove
    dsimp only
    rw [he]
  · exact ⟨rfl, rfl⟩
  · obtain ⟨n, ps, he⟩ := head (by rw [h1]; decide)
    refine ⟨?_, rfl⟩
    unfold handlerModuleRemove
    dsimp only
    rw [he]

theorem proper_nameless {h : Handler Shared Actions} {hc : HCall} (hp : Proper (h, hc)) (ho : hc.op ∈ removers ++ envvarActions)
    (he : hc.params = []) (l : List Action) (a : Actions) : h.run hc (some l) a = (.error .indexError, some l, a) := by
  rcases privMethod_cases hp with ⟨h1, h2, rfl⟩ | ⟨h1, rfl⟩ | ⟨h1, rfl⟩ | ⟨h1, rfl⟩ | ⟨h1, rfl⟩
  · show helperEnvvar hc hc.value (some l) a = _
    unfold helperEnvvar
    rw [he]
  · show helperEnvvar hc (some (hc.value.getD [])) (some l) a = _
    unfold helperEnvvar
    rw [he]
  · unfold handlerEnvvarRemove
    dsimp only
    rw [he]
  · exfalso
    have : ∀ x ∈ moduleActions, x ∉ removers ++ envvarActions := by decide
    exact this _ h1 ho
  · unfold handlerModuleRemove
    dsimp only
    rw [he]

theorem step_smooth {E : Env Shared Actions} (hl : E.level ≤ 4) {ev : Ev Shared Actions} (h : Smooth ev) {k : Core Shared Actions}
    {l : List Action} (hk : k.shared = some l) : ∃ k' l', evStep E root ev k = (none, k') ∧ k'.shared = some l' ∧ k'.self = k.self := by
  cases ev with
  | visit t =>
    unfold evStep
    dsimp only
    split
    · exact ⟨k, l, rfl, hk, rfl⟩
    · exact ⟨_, l, rfl, hk, rfl⟩
  | store => exact ⟨_, l, rfl, hk, rfl⟩
  | cycle =>
    unfold evStep notify
    dsimp only
    rw [if_neg (by omega)]
    split
    · exact ⟨_, l, rfl, hk, rfl⟩
    · exact ⟨_, l, rfl, hk, rfl⟩
  | call hd hc =>
    obtain ⟨h1, h2⟩ := h
    obtain ⟨g1, g2⟩ := proper_ok h1 h2 l k.self
    have g3 := proper_run h1 l k.self
    unfold evStep
    dsimp only at g3 ⊢
    rw [hk, g1, g3, g2]
    exact ⟨_, _, rfl, rfl, rfl⟩
  | missing | fail | ambiguous => exact h.elim

theorem replay_cons {E : Env Shared Actions} {ev : Ev Shared Actions} {k k' : Core Shared Actions} (h : evStep E root ev k = (none, k'))
    (rest : List (Ev Shared Actions)) : replay E root (ev :: rest) k = replay E root rest k' := by
  conv => lhs; unfold replay
  rw [h]

theorem replay_smooth {E : Env Shared Actions} (hl : E.level ≤ 4) : ∀ (evs : List (Ev Shared Actions)), (∀ x ∈ evs, Smooth x) →
    ∀ (k : Core Shared Actions) (l : List Action), k.shared = some l →
    ∃ k' l', k'.shared = some l' ∧ k'.self = k.self ∧ ∀ rest, replay E root (evs ++ rest) k = replay E root rest k'
  | [], _, k, l, hk => ⟨k, l, hk, rfl, fun _ => rfl⟩
  | ev :: evs, h, k, l, hk => by
    obtain ⟨k1, l1, h1, h2, h3⟩ := step_smooth (root := root) hl (h ev List.mem_cons_self) hk
    obtain ⟨k2, l2, g1, g2, g3⟩ := replay_smooth hl evs (fun x hx => h x (List.mem_cons_of_mem _ hx)) k1 l1 h2
    refine ⟨k2, l2, g1, g2.trans h3, fun rest => ?_⟩
    rw [List.cons_append, replay_cons h1]
    exact g3 rest

theorem step_init (cfg : Cfg) (t : Str) (k : Core Shared Actions) (hk : k.shared = none) (rest : List (Ev Shared Actions)) :
    replay (env cfg st) root (.call (env cfg st).hookInit (hookCall t py!"handler_initialize") :: rest) k =
      replay (env cfg st) root rest { k with shared := some [] } := by
  have : evStep (env cfg st) root (.call (env cfg st).hookInit (hookCall t py!"handler_initialize")) k =
      (none, { k with shared := some [] }) := by
    unfold evStep
    simp [SetEnv.env, hookInit, onReturn, initShared, hk]
  exact replay_cons this rest

theorem step_final (cfg : Cfg) (t : Str) (k : Core Shared Actions) {l : List Action} (hk : k.shared = some l) :
    replay (env cfg st) root [.call (env cfg st).hookFinal (hookCall t py!"handler_finalize")] k =
      (none, { k with self := Dict.set k.self t l }) := by
  simp [replay, evStep, SetEnv.env, hookFinal, onReturn, hookCall, hk]

/-! ### The parse -/

variable {n : Nat} {wsD : List (Str × Option Str)} {o : Obj Shared Actions}

theorem hookless_noHook (hone : c.Once) (hh : Hookless c) (st : Settings) : NoHookOptions (env c st) := by
  intro t keys k evs ho hk root hm hd hc hmem
  have hb : ∃ os, BodyOf c t os := by
    apply Classical.byContradiction
    intro h
    have := body_none fun os hb => h ⟨os, hb⟩
    rw [show (env c st).cfg = c from rfl, this] at ho
    cases ho
  obtain ⟨os, hb⟩ := hb
  have hn := (body_raw hone hb).1
  rw [show (env c st).cfg = c from rfl, hn] at ho
  cases ho
  obtain ⟨kv, hkv, rfl⟩ := List.mem_map.1 hk
  obtain ⟨word, ps, h1, h2, _⟩ := meaning_op hm hmem
  have := hh t os hb kv hkv _ word (CPE.Notes.trimmed_strip _) ⟨ps, (C31_split_iff_words _ _).1 h1⟩
  rw [h2]
  exact ⟨fun e => this.1 (opName_plain (by decide) e), fun e => this.2 (opName_plain (by decide) e)⟩

/-- The events of DEFAULT. -/
theorem prelude_calls (hone : c.Once) (hh : Hookless c) (hst : st.defaultName = py!"DEFAULT") (h : Prelude c s wsD)
    (hfit : ∀ o ∈ wsD, Fit o) :
    ∃ evD, (c.hasSection st.defaultName = true → Unrolls (env c st) s (.sec [] st.defaultName) evD) ∧
      (¬ c.hasSection st.defaultName = true → evD = []) ∧ Made wsD ((calls evD).map Prod.snd) ∧ (∀ x ∈ evD, Smooth x) ∧
      (c.hasSection st.defaultName = true → s = st.defaultName ∨ ¬ Reaches (env c st) st.defaultName s) := by
  rw [hst]
  rcases h with ⟨h1, rfl⟩ | ⟨h1, os, h2, h3⟩
  · have h1 : ¬ c.hasSection py!"DEFAULT" = true := fun h => h1 ((default_iff c).1 h)
    exact ⟨[], fun h => absurd h h1, fun _ => rfl, .nil, by simp, fun h => absurd h h1⟩
  · have h1 := (default_iff c).2 h1
    obtain ⟨hn, hraw⟩ := body_raw hone h2
    obtain ⟨evs, g1, g2, g3, g4⟩ := gathers_calls (st := st) (root := s) hone hh h3 hfit hraw
      fun kv hm => body_hookless hh h2 hm (gathered_tight h3 kv hm)
    refine ⟨.visit py!"DEFAULT" :: evs, fun _ => .sec hn g1, fun h => absurd h1 h, g2, ?_, fun _ => ?_⟩
    · intro x hx
      rcases List.mem_cons.1 hx with rfl | hx
      · trivial
      · exact g3 x hx
    · by_cases hd : s = py!"DEFAULT"
      · exact .inl hd
      · right
        intro hr
        have hu : Unrolls (env c st) s (.sec [] py!"DEFAULT") (.visit py!"DEFAULT" :: evs) := .sec hn g1
        cases ho : c.optionNames s with
        | none =>
          have := unrolls_covers_missing hu hr ho
          rcases List.mem_cons.1 this with h | h
          · cases h
          · exact g3 _ h
        | some keys =>
          have := unrolls_covers_visit hu hr (by show (c.optionNames s).isSome = true; rw [ho]; rfl)
          rcases List.mem_cons.1 this with h | h
          · injection h with h; exact hd h
          · rcases g4 s (mem_visits.2 h) with h | h
            · exact hd h
            · exact h rfl

/-- The list of actions that the configuration gives the section is the plan. -/
theorem planned_list (hone : c.Once) (hh : Hookless c) (hst : st.defaultName = py!"DEFAULT") (hb : BodyOf c s os)
    (hD : Prelude c s wsD) (hg : Gathers c (fun _ => True) [s] s os ws) {l : List Action} (hp : Plan (wsD ++ ws) l) :
    ∃ evs, ParseTrace (env c st) s true true evs ∧ (∃ mid, evs = .call (env c st).hookInit (hookCall s py!"handler_initialize") ::
        (mid ++ [.call (env c st).hookFinal (hookCall s py!"handler_finalize")]) ∧ ∀ x ∈ mid, Smooth x) ∧
      ListOf st c true s l := by
  have hfit := plan_fit hp
  obtain ⟨evD, d1, d2, d3, d4, _⟩ := prelude_calls hone hh hst hD fun o ho => hfit o (List.mem_append_left _ ho)
  obtain ⟨hn, hraw⟩ := body_raw hone hb
  obtain ⟨evs, g1, g2, g3, _⟩ := gathers_calls (st := st) (root := s) hone hh hg (fun o ho => hfit o (List.mem_append_right _ ho))
    hraw fun kv hm => body_hookless hh hb hm (gathered_tight hg kv hm)
  refine ⟨_, .mk (evD := evD) (fun h => d1 h.2) (fun h => d2 fun h' => h ⟨rfl, h'⟩) (.sec hn g1), ⟨evD ++ .visit s :: evs, ?_, ?_⟩, ?_⟩
  · rw [if_pos rfl, if_pos rfl]
    simp
  · intro x hx
    rcases List.mem_append.1 hx with hx | hx
    · exact d4 x hx
    · rcases List.mem_cons.1 hx with rfl | hx
      · trivial
      · exact g3 x hx
  · refine ⟨_, ⟨evD, .visit s :: evs, ?_, .sec hn g1, rfl⟩, ?_⟩
    · split
      · rename_i h; exact d1 h.2
      · rename_i h; exact d2 fun h' => h ⟨rfl, h'⟩
    · rw [List.map_append]
      exact made_plan (made_append d3 g2) hp

/-- The parse of a section with a plan goes well. -/
theorem parse_planned (hone : c.Once) (hh : Hookless c) (hst : st.defaultName = py!"DEFAULT") (hlv : st.level ≤ 4) (hne : s ≠ [])
    (hn : c.sectionNames.length + 3 ≤ n) (hb : BodyOf c s os) (hD : Prelude c s wsD)
    (hg : Gathers c (fun _ => True) [s] s os ws) {l : List Action} (hp : Plan (wsD ++ ws) l) (o : Obj Shared Actions) :
    ∃ r o', parseSection (env c st) n s true true o = (.ok r, o') := by
  obtain ⟨evs, ht, ⟨mid, rfl, hmid⟩, _⟩ := planned_list hone hh hst hb hD hg hp
  obtain ⟨evD, _, _, _, _, hap⟩ := prelude_calls hone hh hst hD fun o ho => plan_fit hp o (List.mem_append_left _ ho)
  have h := (parseSection_replay (o := o) hne ht hn fun _ => hap).1
  rw [step_init _ _ _ (by rfl)] at h
  obtain ⟨k, l', h1, _, h2⟩ := replay_smooth (root := s) (E := env c st) hlv mid hmid
    { startCore (env c st) s o.toCore with shared := some [] } [] rfl
  rw [h2, step_final _ _ _ h1] at h
  exact ⟨_, _, Prod.ext h rfl⟩

/-- The parse of a section that gets stuck. -/
theorem parse_stuck (hone : c.Once) (hh : Hookless c) (hst : st.defaultName = py!"DEFAULT") (hlv : st.level ≤ 4) (hne : s ≠ [])
    (hn : c.sectionNames.length + 3 ≤ n) (hb : BodyOf c s os) (hD : Prelude c s wsD) {l : List Action} (hp : Plan wsD l)
    {e : PyExc} (hs : Stuck c [s] s os e) (o : Obj Shared Actions) :
    ∃ o', parseSection (env c st) n s true true o = (.exc e, o') ∧ o'.self = o.self := by
  obtain ⟨evD, d1, d2, d3, d4, hap⟩ := prelude_calls hone hh hst hD (plan_fit hp)
  obtain ⟨hnm, hraw⟩ := body_raw hone hb
  obtain ⟨a, ev, b, g1, g2, g3⟩ := stuck_unrolls (st := st) (root := s) hone hh hs hraw fun kv hm ht => body_hookless hh hb hm ht
  have ht : ParseTrace (env c st) s true true _ :=
    .mk (evD := evD) (fun h => d1 h.2) (fun h => d2 fun h' => h ⟨rfl, h'⟩) (.sec hnm g1)
  obtain ⟨h, hself, _⟩ := parseSection_replay (o := o) hne ht hn fun _ => hap
  have e1 : (if true = true then [Ev.call (env c st).hookInit (hookCall s py!"handler_initialize")] else []) ++ evD ++
      (.visit s :: (a ++ ev :: b)) ++ (if true = true then [.call (env c st).hookFinal (hookCall s py!"handler_finalize")] else []) =
      .call (env c st).hookInit (hookCall s py!"handler_initialize") :: ((evD ++ .visit s :: a) ++
        (ev :: (b ++ [.call (env c st).hookFinal (hookCall s py!"handler_finalize")]))) := by
    rw [if_pos rfl, if_pos rfl]; simp
  rw [e1, step_init _ _ _ (by rfl)] at h hself
  obtain ⟨k, l', h1, h3, h2⟩ := replay_smooth (root := s) (E := env c st) hlv (evD ++ .visit s :: a) (by
    intro x hx
    rcases List.mem_append.1 hx with hx | hx
    · exact d4 x hx
    · rcases List.mem_cons.1 hx with rfl | hx
      · trivial
      · exact g3 x hx) { startCore (env c st) s o.toCore with shared := some [] } [] rfl
  rw [h2] at h hself
  have hstep : ∀ rest, replay (env c st) s (ev :: rest) k = (some e, k) := by
    intro rest
    cases g2 with
    | missing t => rfl
    | nameless k1 k2 k3 =>
      have := proper_nameless k1 k2 k3 l' k.self
      simp [replay, evStep, h1, this]
      rw [← h1]
  rw [hstep] at h hself
  refine ⟨_, Prod.ext h rfl, ?_⟩
  have := congrArg Core.self hself
  exact this.trans h3

end
end CPE.SetEnv
