import Verif.Spec.Render
import Verif.Proofs.Access
import Verif.Proofs.IniCfg
import Verif.Props.Access
import Verif.Model.Object
/-
Lemmas for `unroll_to_str`.
-/
namespace CPE
open Spec
variable {δ ω : Type} {E : Env δ ω} {n : Nat} {s : Str} {o o' : Obj δ ω}

/-! ### The text -/

theorem tight_strip (s : Str) : Tight (strip s) := by
  obtain ⟨a, b, h1, h2, h3, h4⟩ := (Props.C11_strip s (strip s)).1 rfl
  exact h4

theorem strip_mem_of_not_space {s : Str} {c : Char} (hc : c ∈ s) (hw : ¬ White c) : c ∈ strip s := by
  obtain ⟨a, b, h1, h2, h3, h4⟩ := (Props.C11_strip s (strip s)).1 rfl
  rw [h1] at hc
  rcases List.mem_append.1 hc with hc | hc
  · rcases List.mem_append.1 hc with hc | hc
    · exact absurd (h2 c hc) hw
    · exact hc
  · exact absurd (h3 c hc) hw

theorem white_colon : ¬ White ':' := by rw [← Props.isSpace_iff]; decide

theorem tight_append {a b : Str} (ha : ∀ c, a.head? = some c → ¬ White c) (hb : ∀ c, b.getLast? = some c → ¬ White c)
    (hna : a ≠ []) (hnb : b ≠ []) : Tight (a ++ b) := by
  constructor
  · intro c h
    cases a with
    | nil => exact absurd rfl hna
    | cons x a => exact ha c h
  · intro c h
    rw [List.getLast?_append] at h
    cases hl : b.getLast? with
    | none => exact absurd (List.getLast?_eq_none_iff.1 hl) hnb
    | some x => rw [hl] at h; cases h; exact hb c hl

theorem renderOption_line (sp : Bool) (kv : Str × Option Str) : ∃ t, renderOption sp kv = t ++ ['\n'] ∧ Tight t ∧ t ≠ [] := by
  refine ⟨_, rfl, tight_strip _, ?_⟩
  intro h
  have : ':' ∈ strip (kv.1 ++ (if sp then py!" : " else py!":") ++ kv.2.getD []) :=
    strip_mem_of_not_space (List.mem_append_left _ (List.mem_append_right _ (by split <;> simp))) white_colon
  rw [h] at this
  cases this

theorem renderSection_core (sp : Bool) (b : Str × Options) : ∃ t, renderSection sp b = t ++ ['\n'] ∧ Tight t ∧ t ≠ [] := by
  have hh : ∀ x : Str, ∀ c, (py!"[" ++ x).head? = some c → ¬ White c := by
    intro x c h; cases h; rw [← Props.isSpace_iff]; decide
  unfold renderSection
  cases hb : b.2.getLast? with
  | none =>
    rw [List.getLast?_eq_none_iff] at hb
    refine ⟨py!"[" ++ b.1 ++ py!"]", by simp [hb], ?_, by simp⟩
    refine tight_append (hh _) ?_ (by simp) (by simp)
    intro c h; cases h; rw [← Props.isSpace_iff]; decide
  | some kv =>
    obtain ⟨l, hl⟩ : ∃ l, b.2 = l ++ [kv] := by
      obtain ⟨l, hl⟩ := List.getLast?_eq_some_iff.1 hb
      exact ⟨l, hl⟩
    obtain ⟨t, h1, h2, h3⟩ := renderOption_line sp kv
    refine ⟨(py!"[" ++ (b.1 ++ py!"]\n" ++ (l.map (renderOption sp)).flatten)) ++ t, ?_, ?_, by simp⟩
    · rw [hl, List.map_append, List.flatten_append]
      simp only [List.map_cons, List.map_nil, List.flatten_cons, List.flatten_nil, List.append_nil, h1]
      simp only [List.append_assoc]
    · exact tight_append (hh _) h2.2 (by simp) h3

theorem render_core (sp : Bool) : ∀ (bs : List (Str × Options)), bs ≠ [] →
    ∃ t, render sp bs = t ++ ['\n'] ∧ Tight t ∧ t ≠ []
  | [], h => absurd rfl h
  | [b], _ => renderSection_core sp b
  | b :: b' :: bs, _ => by
    obtain ⟨t, h1, h2, h3⟩ := renderSection_core sp b
    obtain ⟨t', g1, g2, g3⟩ := render_core sp (b' :: bs) (by simp)
    refine ⟨(t ++ py!"\n\n") ++ t', ?_, ?_, by simp [h3]⟩
    · rw [render, h1, g1]
      · simp
      · simp
    · refine tight_append ?_ g2.2 (by simp) g3
      intro c h
      cases t with
      | nil => exact absurd rfl h3
      | cons x t => exact h2.1 c h

theorem white_newline : White '\n' := (Props.isSpace_iff _).1 (by decide)

theorem strip_newlines {t e : Str} (ht : Tight t) (he : ∀ c ∈ e, c = '\n') : strip (t ++ e) = t :=
  (Props.C11_strip _ _).2 ⟨[], e, rfl, by simp, fun c hc => he c hc ▸ white_newline, ht.1, ht.2⟩

theorem strip_render (sp : Bool) (bs : List (Str × Options)) :
    strip ((bs.map fun b => renderSection sp b ++ py!"\n").flatten) ++ py!"\n" = render sp bs := by
  cases bs with
  | nil => rfl
  | cons b bs =>
    have : ∀ (bs : List (Str × Options)) (b), ((b :: bs).map fun b => renderSection sp b ++ py!"\n").flatten =
        render sp (b :: bs) ++ py!"\n" := by
      intro bs
      induction bs with
      | nil => intro b; simp [render]
      | cons b' bs ih =>
        intro b
        rw [List.map_cons, List.flatten_cons, ih, render.eq_3 sp b (b' :: bs) (by simp)]
        simp
    rw [this]
    obtain ⟨t, h1, h2, h3⟩ := render_core sp (b :: bs) (by simp)
    rw [h1, List.append_assoc, strip_newlines h2 (by intro c h; simpa using h)]

theorem strip_renderSection (sp : Bool) (b : Str × Options) : strip (renderSection sp b) ++ py!"\n" = renderSection sp b := by
  obtain ⟨t, h1, h2, h3⟩ := renderSection_core sp b
  rw [h1, strip_newlines h2 (by intro c h; simpa using h)]

/-! ### The sections -/

/-- The delimiter of `unroll_to_str`. -/
def delimOf (sp : Bool) : Str := if sp then py!" : " else py!":"

theorem block_eq (sp : Bool) (s : Str) (d : Options) : (py!"[" ++ s ++ py!"]\n" ++
    d.flatMap fun kv => strip (kv.1 ++ delimOf sp ++ kv.2.getD []) ++ py!"\n") = renderSection sp (s, d) := by
  unfold renderSection
  rw [List.flatMap_def]
  rfl

/-- The result of `m` with its value changed. -/
def mapOut {α β : Type} (g : α → β) (r : Out α × Obj δ ω) : Out β × Obj δ ω := (Out.map' g r.1, r.2)

theorem genSection_apply (hf : E.cfg.hasSection s = true) (sp : Bool) (o : Obj δ ω) :
    genSection E n (delimOf sp) s o = mapOut (fun d => renderSection sp (s, d)) (edGet E n s o) := by
  unfold genSection
  rw [M.bind_def, edHasSection_apply hf, edGet_apply]
  cases hp : parseOwner E n s false o with
  | mk r o' =>
    have hm := parseOwner_marks E n s false o
    rw [hp] at hm
    cases r with
    | ok u =>
      dsimp only
      cases hg : Dict.get? o'.data s with
      | none =>
        rw [if_neg (by simp [Dict.mem, hg])]
        simp only [lookup, hg]; rfl
      | some d =>
        rw [if_pos (by simp [Dict.mem, hg]), M.bind_def, edOptions_checked hm]
        simp only [lookup, hg]
        simp only [mapOut, Out.map', ← block_eq]; rfl
    | exc e => rfl
    | diverge => rfl

theorem genSection_missing (hf : E.cfg.hasSection s = false) (sp : Bool) (o : Obj δ ω) :
    genSection E n (delimOf sp) s o = mapOut (fun d => renderSection sp (s, d)) (lookup s o, o) := by
  unfold genSection
  rw [M.bind_def, edHasSection_missing hf]
  dsimp only
  cases hg : Dict.get? o.data s with
  | none =>
    rw [if_neg (by simp [Dict.mem, hg])]
    simp only [lookup, hg]; rfl
  | some d =>
    rw [if_pos (by simp [Dict.mem, hg]), M.bind_def, edOptions_missing hf]
    simp only [lookup, hg]
    simp only [mapOut, Out.map', ← block_eq]; rfl

theorem edGet_settled (ho : Settled E s o) {d : Options} (h : edGet E n s o = (.ok d, o')) : Resolved E s d := by
  rw [edGet_apply] at h
  cases hp : parseOwner E n s false o with
  | mk r o1 =>
    rw [hp] at h
    cases r with
    | ok u =>
      obtain ⟨d', h1, h2⟩ := Props.parseOwner_settled ho hp
      simp only [lookup, h1] at h
      cases h; exact h2
    | exc e => cases h
    | diverge => cases h

/-- `unroll_to_str` asks for the sections one by one. -/
theorem genAll_ok (sp : Bool) : ∀ (l : List Str) (o : Obj δ ω), (∀ s ∈ l, E.cfg.hasSection s = true) →
    (∀ s ∈ l, Settled E s o) → ∀ {t : Str} {o' : Obj δ ω}, genAll E n (delimOf sp) l o = (.ok t, o') →
    ∃ R : List (Str × Options), R.map Prod.fst = l ∧ (∀ b ∈ R, Resolved E b.1 b.2) ∧
      t = (R.map fun b => renderSection sp b ++ py!"\n").flatten := by
  intro l
  induction l with
  | nil =>
    intro o _ _ t o' h
    cases h
    exact ⟨[], rfl, by simp, rfl⟩
  | cons s l ih =>
    intro o hf ho t o' h
    obtain ⟨a, o1, h1, h2⟩ := bind_ok_inv h
    obtain ⟨b, o2, h3, h4⟩ := bind_ok_inv h2
    rw [genSection_apply (hf s (List.mem_cons_self ..))] at h1
    cases hg : edGet E n s o with
    | mk r o3 =>
      rw [hg] at h1
      cases r with
      | exc e => cases h1
      | diverge => cases h1
      | ok d =>
        obtain ⟨rfl, rfl⟩ : a = renderSection sp (s, d) ∧ o3 = o1 := by cases h1; exact ⟨rfl, rfl⟩
        have hset : ∀ t ∈ l, Settled E t o3 := by
          intro t ht
          have := KeepsSettled.edGet (E := E) (s := t) (strict := true) n s (fun _ => rfl) o (ho t (List.mem_cons_of_mem _ ht))
            (fun _ => by rw [hg]; exact ⟨d, rfl⟩)
          rwa [hg] at this
        obtain ⟨R, r1, r2, r3⟩ := ih o3 (fun t ht => hf t (List.mem_cons_of_mem _ ht)) hset h3
        cases h4
        refine ⟨(s, d) :: R, by rw [List.map_cons, r1], ?_, ?_⟩
        · intro b hb
          rcases List.mem_cons.1 hb with rfl | hb
          · exact edGet_settled (ho _ (List.mem_cons_self ..)) hg
          · exact r2 b hb
        · rw [r3, List.map_cons, List.flatten_cons]

end CPE
