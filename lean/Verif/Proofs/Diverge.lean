import Verif.Proofs.Local
/-
A DEFAULT section that uses the root directly makes the parse recurse without end.
-/
namespace CPE
open Spec
variable {δ ω : Type}

/-- From worlds with processed sections `path`, `m` succeeds and keeps `path`. -/
theorem Sim.ok_step {α : Type} {E : Env δ ω} {root : Str} {path : List Str} {m : M (World δ ω) α} {a : α}
    {evs : List (Ev δ ω)} (h : Sim E root path m a evs) (hg : ∀ c, (replay E root evs c).1 = none)
    (w : World δ ω) (hw : ∀ x, x ∈ w.processed ↔ x ∈ path) :
    ∃ w', m w = (.ok a, w') ∧ ∀ x, x ∈ w'.processed ↔ x ∈ path := by
  obtain ⟨h1, _, h3⟩ := h w hw
  rw [hg] at h1
  cases hm : m w with
  | mk o w' =>
    rw [hm] at h1 h3
    dsimp only [outcomeV] at h1
    subst h1
    exact ⟨w', rfl, h3 rfl⟩

theorem forEach_ok_step {E : Env δ ω} {root s : Str} {path : List Str} (rec : Str → M (World δ ω) Unit) (pre : List Str)
    (hpre : ∀ k ∈ pre, ∃ evs, meaning E root s k = .events evs ∧ ∀ c, (replay E root evs c).1 = none)
    (w : World δ ω) (hw : ∀ x, x ∈ w.processed ↔ x ∈ path) :
    ∃ w', M.forEach pre (processOption E rec root s) w = (.ok (), w') ∧ ∀ x, x ∈ w'.processed ↔ x ∈ path := by
  induction pre generalizing w with
  | nil => exact ⟨w, rfl, hw⟩
  | cons k pre ih =>
    obtain ⟨evs, h1, h2⟩ := hpre k List.mem_cons_self
    obtain ⟨w1, hw1, hp1⟩ := (Sim.optionEvents (path := path) rec h1).ok_step h2 w hw
    obtain ⟨w2, hw2, hp2⟩ := ih (fun k hk => hpre k (List.mem_cons_of_mem _ hk)) w1 hp1
    exact ⟨w2, by rw [M.forEach_cons, M.bind_ok hw1]; exact hw2, hp2⟩

theorem parseR_diverges {E : Env δ ω} {root : Str} (hne : E.defaultName ≠ root)
    (hd : E.cfg.hasSection E.defaultName = true) {pre post : List Str} {k : Str}
    (ho : E.cfg.optionNames E.defaultName = some (pre ++ k :: post))
    (hpre : ∀ k ∈ pre, ∃ evs, meaning E root E.defaultName k = .events evs ∧ ∀ c, (replay E root evs c).1 = none)
    (hk : meaning E root E.defaultName k = .link root)
    (hinit : ∀ c, (replay E root [.call E.hookInit (hookCall root py!"handler_initialize")] c).1 = none)
    (n : Nat) (fin : Bool) (w : World δ ω) (hw : root ∉ w.processed) :
    (parseR E n root root true fin w).1 = .diverge := by
  induction n using Nat.strongRecOn generalizing fin w with
  | ind n ih =>
    match n with
    | 0 => rfl
    | 1 =>
      rw [parseR_succ_init]
      obtain ⟨w1, hw1, _⟩ := (Sim.call (E := E) (root := root) (path := w.processed) E.hookInit
        (hookCall root py!"handler_initialize")).ok_step hinit w (fun _ => Iff.rfl)
      unfold hookCall at hw1
      rw [M.bind_ok hw1]
      dsimp only
      rw [if_pos hd]
      rfl
    | m + 2 =>
      rw [parseR_succ_init]
      obtain ⟨w1, hw1, hp1⟩ := (Sim.call (E := E) (root := root) (path := w.processed) E.hookInit
        (hookCall root py!"handler_initialize")).ok_step hinit w (fun _ => Iff.rfl)
      unfold hookCall at hw1
      rw [M.bind_ok hw1]
      dsimp only
      rw [if_pos hd]
      -- it is enough that the parse of DEFAULT does not end
      have main : (parseR E (m + 1) root E.defaultName false false w1).1 = .diverge := by
        rw [parseR_succ_other (.inl rfl)]
        unfold parseMain
        obtain ⟨wl, hwl, hpl⟩ := (Sim.log (E := E) (root := root) (path := w.processed) (.sectionEntry E.defaultName)).ok_step
          (fun _ => rfl) w1 hp1
        rw [M.bind_ok hwl, ho]
        dsimp only
        rw [M.bind_ok (addSection_apply E.defaultName wl), M.modify_bind, M.forEach_append, M.bind_assoc]
        obtain ⟨w2, hw2, hp2⟩ := forEach_ok_step (E := E) (root := root) (s := E.defaultName)
          (path := E.defaultName :: w.processed) (fun t => parseR E m root t true false) pre hpre
          { toCore := { wl.toCore with data := (if (Dict.get? wl.data E.defaultName).isSome then wl.data else wl.data ++ [(E.defaultName, [])]) },
            processed := setAdd wl.processed E.defaultName, log := wl.log }
          (by intro x; simp [mem_setAdd, hpl])
        rw [M.bind_ok hw2, M.forEach_cons, M.bind_assoc]
        obtain ⟨c, ps, l1, l2, hc, _, heq⟩ := processOption_link_eq (fun t => parseR E m root t true false) hk
        have hdiv : ∃ w', processOption E (fun t => parseR E m root t true false) root E.defaultName k w2 = (.diverge, w') := by
          rw [heq]
          have hl : ∀ l (w : World δ ω), ∃ w', logAdd E l w = (.ok (), w') ∧ w'.processed = w.processed := by
            intro l w
            exact ⟨(logAdd E l w).2, rfl, KeepsProc.log E l w⟩
          obtain ⟨v1, e1, q1⟩ := hl l1 w2
          obtain ⟨v2, e2, q2⟩ := hl l2 v1
          obtain ⟨v3, e3, q3⟩ := hl (.handlerEntry c.handlerName c.rawKey c.rawValue) v2
          rw [M.bind_ok e1, M.bind_ok e2]
          unfold operationHandler
          rw [M.bind_ok e3]
          have hr : root ∉ v3.processed := by
            rw [q3, q2, q1]
            rw [hp2 root]
            simp [hw, Ne.symm hne]
          have hrec := ih m (by omega) false v3 hr
          have hu : (useBody E (fun t => parseR E m root t true false) c v3).1 = .diverge := by
            unfold useBody
            rw [hc]
            dsimp only
            rw [M.read_bind, if_neg hr]
            rw [M.bind_def]
            generalize parseR E m root root true false v3 = x at hrec
            obtain ⟨o, v⟩ := x
            dsimp only at hrec
            subst hrec
            rfl
          rw [M.bind_def]
          generalize useBody E _ c v3 = x at hu
          obtain ⟨o, v⟩ := x
          dsimp only at hu
          subst hu
          exact ⟨v, rfl⟩
        obtain ⟨w3, hw3⟩ := hdiv
        rw [M.bind_diverge hw3]
      generalize hx : parseR E (m + 1) root E.defaultName false false w1 = x at main
      obtain ⟨o, w3⟩ := x
      dsimp only at main
      subst main
      rw [M.bind_diverge hx]

end CPE
