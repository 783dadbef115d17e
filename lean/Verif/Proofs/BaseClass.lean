import Verif.Proofs.Render
/-
Lemmas on the base class without handlers, for `unroll_to_str` with `use_base_class_parser`.
-/
namespace CPE
open Spec

section
variable {δ ω : Type} {E E' : Env δ ω} {root root' s : Str}

/-! ### Unrolling in similar environments -/

theorem stores_of_meaning {k : Str} {evs : List (Ev δ ω)} (h : meaning E root s k = .events evs) (root' : Str) :
    ∃ evs', meaning E root' s k = .events evs' ∧ stores evs' = stores evs := by
  cases hm : meaning E root' s k with
  | link t => rw [meaning_link_root hm] at h; cases h
  | events evs' =>
    refine ⟨evs', rfl, ?_⟩
    have key : ∀ {r r' : Str} {a b : List (Ev δ ω)}, meaning E r s k = .events a → meaning E r' s k = .events b →
        ∀ k' v, a = [.store k' v] → b = [.store k' v] := by
      intro r r' a b ha hb k' v he
      subst he
      rw [meaning_store_root ha] at hb
      cases hb; rfl
    have no : ∀ {r : Str} {a : List (Ev δ ω)}, meaning E r s k = .events a → (∀ k' v, a ≠ [.store k' v]) → stores a = [] := by
      intro r a ha hn
      rcases meaning_cases ha with ⟨e, rfl⟩ | ⟨k', v, rfl⟩ | ⟨hd, c, rfl⟩ | ⟨op, hd, c, rfl⟩
      · rfl
      · exact absurd rfl (hn k' v)
      · rfl
      · rfl
    by_cases hs : ∃ k' v, evs = [.store k' v]
    · obtain ⟨k', v, he⟩ := hs
      rw [key h hm k' v he, he]
    · rw [no h (fun k' v he => hs ⟨k', v, he⟩), no hm (fun k' v he => hs ⟨k', v, key hm h k' v he⟩)]

theorem unrolls_stores_root {task : Task} {evs : List (Ev δ ω)} (h : Unrolls E root task evs) (root' : Str) :
    ∃ evs', Unrolls E root' task evs' ∧ stores evs' = stores evs := by
  induction h with
  | missing ho => exact ⟨_, .missing ho, rfl⟩
  | sec ho _ ih =>
    obtain ⟨evs', h1, h2⟩ := ih
    exact ⟨_, .sec ho h1, h2⟩
  | nil => exact ⟨_, .nil, rfl⟩
  | plain hm _ ih =>
    obtain ⟨evs', h1, h2⟩ := ih
    obtain ⟨a, g1, g2⟩ := stores_of_meaning hm root'
    exact ⟨_, .plain g1 h1, by rw [stores_append, stores_append, g2, h2]⟩
  | cyclic hm ht _ ih =>
    obtain ⟨evs', h1, h2⟩ := ih
    exact ⟨_, .cyclic (meaning_link_root hm) ht h1, h2⟩
  | link hm ht _ _ ih1 ih2 =>
    obtain ⟨a, h1, h2⟩ := ih1
    obtain ⟨b, h3, h4⟩ := ih2
    exact ⟨_, .link (meaning_link_root hm) ht h1 h3, by rw [stores_append, stores_append, h2, h4]⟩

theorem unrolls_congr (ho : ∀ s, E'.cfg.optionNames s = E.cfg.optionNames s) (hm : ∀ r s k, meaning E' r s k = meaning E r s k)
    {task : Task} {evs : List (Ev δ ω)} (h : Unrolls E root task evs) : Unrolls E' root task evs := by
  induction h with
  | missing h => exact .missing (by rw [ho, h])
  | sec h _ ih => exact .sec (by rw [ho, h]) ih
  | nil => exact .nil
  | plain h _ ih => exact .plain (by rw [hm, h]) ih
  | cyclic h ht _ ih => exact .cyclic (by rw [hm, h]) ht ih
  | link h ht _ _ ih1 ih2 => exact .link (by rw [hm, h]) ht ih1 ih2

/-- The exception level is not part of the meaning of a file. -/
theorem parseTrace_level {l : Nat} {i f : Bool} {evs : List (Ev δ ω)} (h : ParseTrace { E with level := l } s i f evs) :
    ParseTrace E s i f evs := by
  cases h with
  | mk h1 h2 h3 =>
    exact .mk (fun hc => unrolls_congr (E := { E with level := l }) (E' := E) (fun _ => rfl) (fun _ _ _ => rfl) (h1 hc)) h2
      (unrolls_congr (E := { E with level := l }) (E' := E) (fun _ => rfl) (fun _ _ _ => rfl) h3)

theorem resolved_level {l : Nat} {d : Options} (h : Resolved { E with level := l } s d) : Resolved E s d := by
  obtain ⟨evs, h1, h2⟩ := h
  exact ⟨evs, parseTrace_level h1, h2⟩

theorem mem_of_lastWrite {k : Str} {v : Option Str} : ∀ {ws : List (Str × Option Str)}, lastWrite ws k = some v → (k, v) ∈ ws := by
  intro ws
  induction ws with
  | nil => intro h; cases h
  | cons p ws ih =>
    obtain ⟨k', v'⟩ := p
    intro h
    simp only [lastWrite] at h
    cases hl : lastWrite ws k with
    | some v2 => rw [hl] at h; cases h; exact .tail _ (ih hl)
    | none =>
      rw [hl] at h
      dsimp only at h
      split at h
      · rename_i e; cases h; rw [e]; exact .head _
      · cases h

theorem resolved_nodup {d : Options} (h : Resolved E s d) : (Dict.keys d).Nodup := by
  obtain ⟨evs, _, h2⟩ := h
  rw [h2.1]; exact nodup_firstOccurrences _

theorem get?_of_mem {d : Options} (hn : (Dict.keys d).Nodup) {k : Str} {v : Option Str} (h : (k, v) ∈ d) :
    Dict.get? d k = some v := by
  induction d with
  | nil => cases h
  | cons p d ih =>
    obtain ⟨k', v'⟩ := p
    simp only [Dict.keys, List.map_cons, List.nodup_cons] at hn
    rcases List.mem_cons.1 h with h | h
    · cases h; simp [Dict.get?]
    · rw [Dict.get?]
      rw [if_neg]
      · exact ih hn.2 h
      · rintro rfl
        exact hn.1 (List.mem_map.2 ⟨(k', v), h, rfl⟩)

/-- Where the entries of the enhanced data come from. -/
theorem resolved_entry {d : Options} (h : Resolved E s d) {k : Str} {v : Option Str} (hk : (k, v) ∈ d) :
    Unclaimed E k ∧ Tight k ∧ ∀ x, v = some x → stripQuotes x = x := by
  have hn := resolved_nodup h
  obtain ⟨evs, ht, hl⟩ := h
  have h1 := get?_of_mem hn hk
  rw [hl.2] at h1
  have h2 := mem_stores.1 (mem_of_lastWrite h1)
  obtain ⟨evD, evR, hD, hD', hR, rfl⟩ := parseTrace_inv ht
  have origin : ∀ a, Origin E s a (.store k v) → Unclaimed E k ∧ Tight k ∧ ∀ x, v = some x → stripQuotes x = x := by
    intro a ho
    cases ho with
    | option hr hk hm hev he =>
      rename_i t keys key evs
      rcases meaning_cases hev with ⟨e, rfl⟩ | ⟨k', v', rfl⟩ | ⟨_, _, rfl⟩ | ⟨_, _, _, rfl⟩ <;> simp at he
      obtain ⟨rfl, rfl⟩ := he
      obtain ⟨x, hx, hc, rfl, hu⟩ := (Props.store_iff E s t key k v).mp hev
      refine ⟨hu, tight_strip _, ?_⟩
      intro y hy
      subst hy
      cases hc with
      | text h1 h2 =>
        obtain ⟨_, _, _, _, _, g1, g2⟩ := h2
        exact (Props.C11_strip_quotes _ _).2 ⟨[], [], by simp, by simp, by simp, g1, g2⟩
  simp only [if_true, List.mem_append, List.mem_singleton, reduceCtorEq, or_false, false_or] at h2
  rcases h2 with hm | hm
  · by_cases hdef : E.cfg.hasSection E.defaultName = true
    · exact origin _ (unrolls_origin (hD ⟨rfl, hdef⟩) _ hm)
    · rw [hD' (by simp [hdef])] at hm
      cases hm
  · exact origin _ (unrolls_origin hR _ hm)

/-- The enhanced data of a section starts with the keys of DEFAULT. -/
theorem resolved_default {d d0 : Options} (hd : E.cfg.hasSection E.defaultName = true) (h : Resolved E s d)
    (h0 : Resolved E E.defaultName d0) : Dict.keys d0 <+: Dict.keys d := by
  obtain ⟨evs, ht, hl⟩ := h
  obtain ⟨evs0, ht0, hl0⟩ := h0
  obtain ⟨evD, evR, hD, hD', hR, rfl⟩ := parseTrace_inv ht
  obtain ⟨evD0, evR0, hE, hE', hS, rfl⟩ := parseTrace_inv ht0
  have hD := hD ⟨rfl, hd⟩
  have hE := hE ⟨rfl, hd⟩
  have := unrolls_det hE hS
  subst this
  obtain ⟨ev', g1, g2⟩ := unrolls_stores_root hD E.defaultName
  have := unrolls_det g1 hE
  subst this
  rw [lastWins_iff] at hl hl0
  rw [hl, hl0]
  simp only [stores_append, if_true, stores, List.append_nil, List.nil_append, writeAll_append, g2]
  rw [writeAll_idem [] (by simp [Dict.keys])]
  rw [keys_writeAll (writeAll [] (stores evD))]
  exact List.prefix_append _ _

end

/-! ### The base class -/

/-- The base class with a configuration and a level. -/
def baseEnv (c : Cfg) (l : Nat) : Env Unit Unit := { baseClass with cfg := c, level := l }

/-- Events of the base class. -/
def Mild : Ev Unit Unit → Prop
  | .call h _ => h = baseHook
  | .ambiguous _ => False
  | _ => True

theorem mild_meaning {c : Cfg} {l : Nat} {root s k : Str} {evs : List (Ev Unit Unit)}
    (h : meaning (baseEnv c l) root s k = .events evs) : ∀ e ∈ evs, Mild e := by
  have hp : ∀ op hd, publicHandler (baseEnv c l) op = some hd → hd = baseHook ∧ (baseEnv c l).priv op = none := by
    intro op hd h
    unfold publicHandler at h
    split at h
    · rename_i e
      cases h; subst e; exact ⟨rfl, rfl⟩
    · split at h
      · rename_i e
        cases h; subst e; exact ⟨rfl, rfl⟩
      · cases h
  have hq : ∀ op hd, (baseEnv c l).priv op ≠ some (.user hd) := by
    intro op hd h
    change (if op = py!"use" then some Impl.use else none) = _ at h
    split at h <;> cases h
  unfold meaning at h
  cases hv : (baseEnv c l).cfg.value s k with
  | error e => rw [hv] at h; cases h; simp [Mild]
  | ok v =>
    rw [hv] at h
    dsimp only at h
    cases hs : shlexSplit (strip k) with
    | error e => rw [hs] at h; cases h; simp [Mild]
    | ok ws =>
      rw [hs] at h
      cases ws with
      | nil => cases h; simp [Mild]
      | cons w ps =>
        dsimp only at h
        split at h
        · cases h1 : publicHandler (baseEnv c l) (opName w) with
          | some hd =>
            obtain ⟨g1, g2⟩ := hp _ _ h1
            rw [h1, g2] at h
            cases h
            simp [Mild, g1]
          | none =>
            rw [h1] at h
            cases h2 : (baseEnv c l).priv (opName w) with
            | none => rw [h2] at h; cases h; simp [Mild]
            | some i =>
              rw [h2] at h
              cases i with
              | user hd => exact absurd h2 (hq _ _)
              | use =>
                dsimp only at h
                cases ps with
                | nil => cases h; simp [Mild]
                | cons t ps => cases h
        · cases h; simp [Mild]

theorem mild_unrolls {c : Cfg} {l : Nat} {root : Str} {task : Task} {evs : List (Ev Unit Unit)}
    (h : Unrolls (baseEnv c l) root task evs) : ∀ e ∈ evs, Mild e := by
  induction h with
  | missing _ => simp [Mild]
  | sec _ _ ih => simpa [Mild] using ih
  | nil => simp
  | plain hm _ ih =>
    intro e he
    rcases List.mem_append.1 he with he | he
    · exact mild_meaning hm e he
    · exact ih e he
  | cyclic _ _ _ ih => simpa [Mild] using ih
  | link _ _ _ _ ih1 ih2 =>
    intro e he
    rcases List.mem_append.1 he with he | he
    · exact ih1 e he
    · exact ih2 e he

theorem mild_trace {c : Cfg} {l : Nat} {s : Str} {i f : Bool} {evs : List (Ev Unit Unit)}
    (h : ParseTrace (baseEnv c l) s i f evs) : ∀ e ∈ evs, Mild e := by
  obtain ⟨evD, evR, hD, hD', hR, rfl⟩ := parseTrace_inv h
  intro e he
  simp only [List.mem_append] at he
  rcases he with ((he | he) | he) | he
  · split at he
    · cases List.mem_singleton.1 he; rfl
    · cases he
  · by_cases hc : i = true ∧ (baseEnv c l).cfg.hasSection (baseEnv c l).defaultName = true
    · exact mild_unrolls (hD hc) e he
    · rw [hD' hc] at he; cases he
  · exact mild_unrolls hR e he
  · split at he
    · cases List.mem_singleton.1 he; rfl
    · cases he

theorem evStep_mild {c : Cfg} {l : Nat} (hl : l ≤ 4) {root : Str} {ev : Ev Unit Unit} (hm : Mild ev) (w : Core Unit Unit) :
    (∀ e, Fault ev e → (evStep (baseEnv c l) root ev w).1 = some e) ∧
    ((∀ e, ¬ Fault ev e) → (evStep (baseEnv c l) root ev w).1 = none) := by
  cases ev with
  | visit s => exact ⟨fun e h => (by cases h), fun _ => rfl⟩
  | missing s => exact ⟨fun e h => (by cases h; rfl), fun h => absurd (.missing s) (h _)⟩
  | store k v => exact ⟨fun e h => (by cases h), fun _ => rfl⟩
  | call h c =>
    cases hm
    exact ⟨fun e h => (by cases h), fun _ => rfl⟩
  | cycle a b =>
    refine ⟨fun e h => (by cases h), fun _ => ?_⟩
    change (notify (baseEnv c l) .warning 5 .valueError w).1 = none
    unfold notify
    rw [if_neg (show ¬ 5 ≤ (baseEnv c l).level by change ¬ 5 ≤ l; omega)]
    split <;> rfl
  | ambiguous op => exact absurd hm id
  | fail e => exact ⟨fun e' h => (by cases h; rfl), fun h => absurd (.fail e) (h _)⟩

theorem replay_mild {c : Cfg} {l : Nat} (hl : l ≤ 4) {root : Str} : ∀ {evs : List (Ev Unit Unit)}, (∀ e ∈ evs, Mild e) →
    ∀ w : Core Unit Unit, (∀ x ∈ evs, ∀ e, ¬ Fault x e) → (replay (baseEnv c l) root evs w).1 = none := by
  intro evs
  induction evs with
  | nil => intro _ w _; rfl
  | cons ev evs ih =>
    intro hm w hf
    have := (evStep_mild (c := c) hl (root := root) (hm ev (List.mem_cons_self ..)) w).2 (hf ev (List.mem_cons_self ..))
    rw [replay]
    cases hs : evStep (baseEnv c l) root ev w with
    | mk r w' =>
      rw [hs] at this
      cases this
      exact ih (fun e h => hm e (List.mem_cons_of_mem _ h)) w' (fun x h => hf x (List.mem_cons_of_mem _ h))

theorem replay_fault {c : Cfg} {l : Nat} (hl : l ≤ 4) {root : Str} {ev : Ev Unit Unit} {e : PyExc} (hev : Fault ev e)
    {b : List (Ev Unit Unit)} : ∀ {a : List (Ev Unit Unit)}, (∀ x ∈ a ++ ev :: b, Mild x) → (∀ x ∈ a, ∀ e, ¬ Fault x e) →
    ∀ w : Core Unit Unit, (replay (baseEnv c l) root (a ++ ev :: b) w).1 = some e := by
  intro a
  induction a with
  | nil =>
    intro hm _ w
    rw [List.nil_append, replay]
    have := (evStep_mild (c := c) hl (root := root) (hm ev (by simp)) w).1 e hev
    cases hs : evStep (baseEnv c l) root ev w with
    | mk r w' => rw [hs] at this; cases this; rfl
  | cons x a ih =>
    intro hm hf w
    have := (evStep_mild (c := c) hl (root := root) (hm x (by simp)) w).2 (hf x (List.mem_cons_self ..))
    rw [List.cons_append, replay]
    cases hs : evStep (baseEnv c l) root x w with
    | mk r w' =>
      rw [hs] at this
      cases this
      exact ih (fun y h => hm y (List.mem_cons_of_mem _ h)) (fun y h => hf y (List.mem_cons_of_mem _ h)) w'

end CPE
