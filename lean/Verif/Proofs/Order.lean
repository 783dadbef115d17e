import Verif.Spec.Order
import Verif.Proofs.Move
import Verif.Proofs.Graph
import Verif.Proofs.RoundTrip
import Verif.Proofs.BaseClass
/-
Changing the order or number of the options of a section: which values are written last.
-/
namespace CPE
open CPE.Spec
variable {δ ω : Type} {E : Env δ ω} {c' : Cfg} {s root : Str} {old new : List Str}

/-- Both write the same values last. -/
def SameLast (a b : List (Ev δ ω)) : Prop := ∀ k, lastWrite (stores a) k = lastWrite (stores b) k

theorem lastWrite_or (a b : List (Ev δ ω)) (k : Str) :
    lastWrite (stores (a ++ b)) k = (lastWrite (stores b) k).or (lastWrite (stores a) k) := by
  rw [stores_append, lastWrite_append]
  cases lastWrite (stores b) k <;> rfl

theorem sameLast_append {a a' b b' : List (Ev δ ω)} (h1 : SameLast a a') (h2 : SameLast b b') : SameLast (a ++ b) (a' ++ b') := by
  intro k
  rw [lastWrite_or, lastWrite_or, h1, h2]

/-- Writing different keys: the order is of no account. -/
theorem sameLast_swap {a b : List (Ev δ ω)} (h : ∀ k, lastWrite (stores a) k = none ∨ lastWrite (stores b) k = none) :
    SameLast (a ++ b) (b ++ a) := by
  intro k
  rw [lastWrite_or, lastWrite_or]
  rcases h k with h | h <;> rw [h] <;> simp

/-- What is written again later need not be written. -/
theorem sameLast_again {a b m : List (Ev δ ω)} (h : stores a = stores b) : SameLast (m ++ b) (a ++ (m ++ b)) := by
  intro k
  rw [lastWrite_or, lastWrite_or, lastWrite_or, h]
  cases lastWrite (stores b) k <;> cases lastWrite (stores m) k <;> rfl

/-- What a section writes, it or one it uses has. -/
theorem unrolls_writes {task : Task} {evs : List (Ev δ ω)} (h : Unrolls E root task evs) {k : Str} {v : Option Str}
    (hk : (k, v) ∈ stores evs) :
    match task with
    | .sec _ x => ∃ t, Reaches E x t ∧ HasUnhandled E t k
    | .opts _ x keys => ∃ key ∈ keys, Writes E x key k := by
  induction h with
  | missing => cases hk
  | @sec path x keys evs ho _ ih =>
    obtain ⟨key, h1, h2⟩ := ih hk
    rcases h2 with ⟨v, h2⟩ | ⟨w, t, h2, h3, h4⟩
    · exact ⟨x, .refl _, keys, key, v, ho, h1, h2⟩
    · exact ⟨t, .step ⟨keys, key, ho, h1, h2⟩ h3, h4⟩
  | nil => cases hk
  | @plain path x key ks evs rest hm _ ih =>
    rw [stores_append] at hk
    rcases List.mem_append.1 hk with hk | hk
    · rcases meaning_cases hm with ⟨_, rfl⟩ | ⟨k', v', rfl⟩ | ⟨_, _, rfl⟩ | ⟨_, _, _, rfl⟩
      · cases hk
      · simp only [stores, List.mem_singleton, Prod.mk.injEq] at hk
        exact ⟨key, .head _, .inl ⟨v', hk.1 ▸ meaning_store_root hm⟩⟩
      · cases hk
      · cases hk
    · obtain ⟨key, h1, h2⟩ := ih hk
      exact ⟨key, .tail _ h1, h2⟩
  | cyclic _ _ _ ih =>
    obtain ⟨key, h1, h2⟩ := ih hk
    exact ⟨key, .tail _ h1, h2⟩
  | @link path x key ks w sub rest hm _ _ _ ih1 ih2 =>
    rw [stores_append] at hk
    rcases List.mem_append.1 hk with hk | hk
    · obtain ⟨t, h1, h2⟩ := ih1 hk
      exact ⟨key, .head _, .inr ⟨w, t, meaning_link_root hm, h1, h2⟩⟩
    · obtain ⟨key, h1, h2⟩ := ih2 hk
      exact ⟨key, .tail _ h1, h2⟩

/-- Options with their events, for the new file. -/
theorem edited_keys {p : List Str} {x : Str} (L : List (Str × List (Ev δ ω)))
    (hL : ∀ q ∈ L, ∃ e', Unrolls { E with cfg := c' } root (.opts p x [q.1]) e' ∧ SameLast e' q.2) :
    ∃ e', Unrolls { E with cfg := c' } root (.opts p x (L.map Prod.fst)) e' ∧ SameLast e' (L.flatMap Prod.snd) := by
  induction L with
  | nil => exact ⟨[], .nil, fun _ => rfl⟩
  | cons q L ih =>
    obtain ⟨e1, h1, h2⟩ := hL q (.head _)
    obtain ⟨e2, h3, h4⟩ := ih fun q hq => hL q (.tail _ hq)
    exact ⟨e1 ++ e2, unrolls_cons h1 h3, sameLast_append h2 h4⟩

/-- The new options are some of the old ones, and write the same values last, below all sections. -/
def Harmless (E : Env δ ω) (s : Str) (old new : List Str) : Prop :=
  ∀ root p (L : List (Str × List (Ev δ ω))), L.map Prod.fst = old → (∀ q ∈ L, Unrolls E root (.opts (s :: p) s [q.1]) q.2) →
    ∃ L' : List (Str × List (Ev δ ω)), L'.map Prod.fst = new ∧ (∀ q ∈ L', q ∈ L) ∧ SameLast (L'.flatMap Prod.snd) (L.flatMap Prod.snd)

/-- The unrolling of the new file. -/
theorem unrolls_edited (D : Edited E c' s old new) (H : Harmless E s old new) {task : Task} {evs : List (Ev δ ω)}
    (h : Unrolls E root task evs) :
    match task with
    | .sec p x => ∃ evs', Unrolls { E with cfg := c' } root (.sec p x) evs' ∧ SameLast evs' evs
    | .opts p x keys => ∃ L : List (Str × List (Ev δ ω)), L.map Prod.fst = keys ∧ L.flatMap Prod.snd = evs ∧
        ∀ q ∈ L, Unrolls E root (.opts p x [q.1]) q.2 ∧ (c'.value x q.1 = E.cfg.value x q.1 →
          ∃ e', Unrolls { E with cfg := c' } root (.opts p x [q.1]) e' ∧ SameLast e' q.2) := by
  have hsame : ∀ x k, c'.value x k = E.cfg.value x k → meaning { E with cfg := c' } root x k = meaning E root x k := by
    intro x k hv
    unfold meaning
    rw [show ({ E with cfg := c' } : Env δ ω).cfg.value x k = E.cfg.value x k from hv]
    rfl
  induction h with
  | @missing path x ho =>
    have hs : x ≠ s := by rintro rfl; rw [D.before] at ho; cases ho
    exact ⟨_, .missing ((D.others x hs).trans ho), fun _ => rfl⟩
  | @sec path x keys evs ho hu ih =>
    obtain ⟨L, h1, h2, h3⟩ := ih
    by_cases hs : x = s
    · subst hs
      rw [D.before] at ho
      cases ho
      obtain ⟨L', g1, g2, g3⟩ := H root path L h1 fun q hq => (h3 q hq).1
      obtain ⟨e', u', r'⟩ := edited_keys (root := root) (c' := c') (E := E) (p := x :: path) (x := x) L' fun q hq =>
        (h3 q (g2 q hq)).2 (D.values x new q.1 D.after (g1 ▸ List.mem_map.2 ⟨q, hq, rfl⟩))
      rw [g1] at u'
      exact ⟨_, .sec D.after u', fun k => (r' k).trans ((g3 k).trans (by rw [h2]; rfl))⟩
    · have ho' := (D.others x hs).trans ho
      subst h1
      obtain ⟨e', u', r'⟩ := edited_keys (root := root) (c' := c') (E := E) (p := x :: path) (x := x) L fun q hq =>
        (h3 q hq).2 (D.values x _ q.1 ho' (List.mem_map.2 ⟨q, hq, rfl⟩))
      exact ⟨_, .sec ho' u', fun k => (r' k).trans (by rw [h2]; rfl)⟩
  | nil => exact ⟨[], rfl, rfl, fun _ h => by cases h⟩
  | @plain path x k ks evs rest hm _ ih =>
    obtain ⟨L, h1, h2, h3⟩ := ih
    refine ⟨(k, evs) :: L, by simp [h1], by simp [h2], fun q hq => ?_⟩
    rcases List.mem_cons.1 hq with rfl | hq
    · have key : ∀ E' : Env δ ω, meaning E' root x k = .events evs → Unrolls E' root (.opts path x [k]) evs := fun E' h => by
        have := Unrolls.plain (path := path) h (.nil)
        rwa [List.append_nil] at this
      exact ⟨key E hm, fun hv => ⟨_, key _ ((hsame x k hv).trans hm), fun _ => rfl⟩⟩
    · exact h3 q hq
  | @cyclic path x k ks w rest hm hw _ ih =>
    obtain ⟨L, h1, h2, h3⟩ := ih
    refine ⟨(k, [.cycle x w]) :: L, by simp [h1], by simp [h2], fun q hq => ?_⟩
    rcases List.mem_cons.1 hq with rfl | hq
    · exact ⟨.cyclic hm hw .nil, fun hv => ⟨_, .cyclic ((hsame x k hv).trans hm) hw .nil, fun _ => rfl⟩⟩
    · exact h3 q hq
  | @link path x k ks w sub rest hm hw hu _ ih1 ih2 =>
    obtain ⟨L, h1, h2, h3⟩ := ih2
    refine ⟨(k, sub) :: L, by simp [h1], by simp [h2], fun q hq => ?_⟩
    rcases List.mem_cons.1 hq with rfl | hq
    · have key : ∀ (E' : Env δ ω) sub, meaning E' root x k = .link w → Unrolls E' root (.sec path w) sub →
          Unrolls E' root (.opts path x [k]) sub := fun E' sub h hu => by
        have := Unrolls.link (path := path) h hw hu .nil
        rwa [List.append_nil] at this
      obtain ⟨sub', g1, g2⟩ := ih1
      exact ⟨key E sub hm hu, fun hv => ⟨_, key _ sub' ((hsame x k hv).trans hm) g1, g2⟩⟩
    · exact h3 q hq

/-- The unrolling of a whole parse. -/
theorem parseTrace_edited (D : Edited E c' s old new) (H : Harmless E s old new) {i f : Bool} {evs : List (Ev δ ω)}
    (h : ParseTrace E root i f evs) : ∃ evs', ParseTrace { E with cfg := c' } root i f evs' ∧ SameLast evs' evs := by
  obtain ⟨h1, h2, h3⟩ := h
  rename_i evD evR
  obtain ⟨evR', u1, r1⟩ := unrolls_edited D H h3
  have hr : ∀ l : List (Ev δ ω), SameLast l l := fun _ _ => rfl
  have hd : ({ E with cfg := c' } : Env δ ω).cfg.hasSection E.defaultName = E.cfg.hasSection E.defaultName := D.default
  by_cases hx : i = true ∧ E.cfg.hasSection E.defaultName = true
  · obtain ⟨evD', u2, r2⟩ := unrolls_edited D H (h1 hx)
    exact ⟨_, .mk (fun _ => u2) (fun hn => absurd ⟨hx.1, hd.trans hx.2⟩ hn) u1,
      sameLast_append (sameLast_append (sameLast_append (hr _) r2) r1) (hr _)⟩
  · refine ⟨_, .mk (evD := []) (fun hn => absurd ⟨hn.1, hd.symm.trans hn.2⟩ hx) (fun _ => rfl) u1, ?_⟩
    rw [h2 hx]
    exact sameLast_append (sameLast_append (hr _) r1) (hr _)

/-- Two neighbours that write different keys may change places. -/
theorem harmless_swap {a z : List Str} {k1 k2 : Str} (h : ∀ k, ¬ (Writes E s k1 k ∧ Writes E s k2 k)) :
    Harmless E s (a ++ k1 :: k2 :: z) (a ++ k2 :: k1 :: z) := by
  intro root p L h1 h2
  obtain ⟨La, L1, rfl, rfl, h3⟩ := List.map_eq_append_iff.1 h1
  obtain ⟨q1, L2, rfl, rfl, h4⟩ := List.map_eq_cons_iff.1 h3
  obtain ⟨q2, Lz, rfl, rfl, rfl⟩ := List.map_eq_cons_iff.1 h4
  refine ⟨La ++ q2 :: q1 :: Lz, by simp, fun q hq => ?_, ?_⟩
  · simp only [List.mem_append, List.mem_cons] at hq ⊢
    rcases hq with h | h | h | h
    · exact .inl h
    · exact .inr (.inr (.inl h))
    · exact .inr (.inl h)
    · exact .inr (.inr (.inr h))
  · have hw : ∀ q : Str × List (Ev δ ω), Unrolls E root (.opts (s :: p) s [q.1]) q.2 → ∀ k v, lastWrite (stores q.2) k = some v → Writes E s q.1 k := by
      intro q hq k v hv
      obtain ⟨key, g1, g2⟩ := unrolls_writes hq (mem_of_lastWrite hv)
      rw [List.mem_singleton.1 g1] at g2
      exact g2
    have hsw : SameLast (q2.2 ++ q1.2) (q1.2 ++ q2.2) := sameLast_swap fun k => by
      cases e1 : lastWrite (stores q2.2) k with
      | none => exact .inl rfl
      | some v =>
        cases e2 : lastWrite (stores q1.2) k with
        | none => exact .inr rfl
        | some v' => exact absurd ⟨hw q1 (h2 q1 (by simp)) k v' e2, hw q2 (h2 q2 (by simp)) k v e1⟩ (h k)
    simp only [List.flatMap_append, List.flatMap_cons]
    rw [← List.append_assoc q2.2, ← List.append_assoc q1.2]
    exact sameLast_append (fun _ => rfl) (sameLast_append hsw fun _ => rfl)

/-- A `use` of a section that is used again further down may be left out. -/
theorem harmless_again {a m z : List Str} {k1 k2 w : Str} (h1 : meaning E s s k1 = .link w) (h2 : meaning E s s k2 = .link w) :
    Harmless E s (a ++ k1 :: (m ++ k2 :: z)) (a ++ (m ++ k2 :: z)) := by
  intro root p L e1 hL
  obtain ⟨La, L1, rfl, rfl, h3⟩ := List.map_eq_append_iff.1 e1
  obtain ⟨q1, L2, rfl, rfl, h4⟩ := List.map_eq_cons_iff.1 h3
  obtain ⟨Lm, L3, rfl, rfl, h5⟩ := List.map_eq_append_iff.1 h4
  obtain ⟨q2, Lz, rfl, rfl, rfl⟩ := List.map_eq_cons_iff.1 h5
  refine ⟨La ++ (Lm ++ q2 :: Lz), by simp, fun q hq => ?_, ?_⟩
  · simp only [List.mem_append, List.mem_cons] at hq ⊢
    rcases hq with h | h | h | h
    · exact .inl h
    · exact .inr (.inr (.inl h))
    · exact .inr (.inr (.inr (.inl h)))
    · exact .inr (.inr (.inr (.inr h)))
  · have hst : stores q1.2 = stores q2.2 := by
      have u1 := hL q1 (by simp)
      have u2 := hL q2 (by simp)
      have m1 := meaning_link_root (root' := root) h1
      have m2 := meaning_link_root (root' := root) h2
      generalize q1.2 = x1 at u1
      generalize q2.2 = x2 at u2
      cases u1 with
      | plain hm _ => rw [m1] at hm; cases hm
      | cyclic hm hw hr =>
        rw [m1] at hm; cases hm; cases hr
        cases u2 with
        | plain hm _ => rw [m2] at hm; cases hm
        | cyclic hm _ hr => cases hr; rfl
        | link hm hn => rw [m2] at hm; cases hm; exact absurd hw hn
      | link hm hn hu hr =>
        rw [m1] at hm; cases hm; cases hr
        cases u2 with
        | plain hm _ => rw [m2] at hm; cases hm
        | cyclic hm hw _ => rw [m2] at hm; cases hm; exact absurd hw hn
        | link hm _ hu' hr =>
          rw [m2] at hm; cases hm; cases hr
          rw [unrolls_det hu hu']
    simp only [List.flatMap_append, List.flatMap_cons]
    rw [← List.append_assoc (Lm.flatMap _), ← List.append_assoc q1.2]
    exact sameLast_append (fun _ => rfl) (sameLast_append (sameLast_again hst) fun _ => rfl)

end CPE
