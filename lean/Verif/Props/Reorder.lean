import Verif.Spec.Reorder
import Verif.Props.Keywords
import Verif.Props.DetermineSystem
/-
C88: the order of environments, aliases and systems in the files is of no account unless two of them fit equally well.
-/
namespace CPE.Props
open CPE CPE.Spec CPE.SetEnv CPE.KW CPE.KW.Spec

section
variable {E E' : Env Unit Unit} {n n' : Nat} {d d' : Options}

theorem perm_flatMap_congr {α β : Type} {f g : α → List β} {l : List α} (h : ∀ a ∈ l, (f a).Perm (g a)) :
    (l.flatMap f).Perm (l.flatMap g) := by
  induction l with
  | nil => exact .refl _
  | cons a l ih =>
    rw [List.flatMap_cons, List.flatMap_cons]
    exact (h a (.head _)).append (ih fun b hb => h b (.tail _ hb))

theorem perm_flatMap_list {α β : Type} (f : α → List β) {l l' : List α} (h : l.Perm l') : (l.flatMap f).Perm (l'.flatMap f) := by
  induction h with
  | nil => exact .refl _
  | cons a _ ih => rw [List.flatMap_cons, List.flatMap_cons]; exact (List.Perm.refl _).append ih
  | swap a b l =>
    rw [List.flatMap_cons, List.flatMap_cons, List.flatMap_cons, List.flatMap_cons, ← List.append_assoc, ← List.append_assoc]
    exact List.perm_append_comm.append (.refl _)
  | trans _ _ h1 h2 => exact h1.trans h2

theorem reordered_values (h : Reordered d d') : (allValues d).Perm (allValues d') :=
  (perm_flatMap_congr h.2).trans (perm_flatMap_list _ h.1)

theorem reordered_symm (h : Reordered d d') : Reordered d' d :=
  ⟨h.1.symm, fun k hk => (h.2 k (h.1.mem_iff.2 hk)).symm⟩

theorem reordered_acceptable (h : Reordered d d') (ha : AllAcceptable d) : AllAcceptable d' := by
  intro k hk
  have hk' := h.1.mem_iff.2 hk
  obtain ⟨h1, h2, h3⟩ := ha k hk'
  have hp := h.2 k hk'
  exact ⟨hp.nodup_iff.1 h1, fun v hv => h2 v (hp.mem_iff.2 hv), fun v hv hm => h3 v (hp.mem_iff.2 hv) (h.1.mem_iff.2 hm)⟩

theorem best_perm {p : Str → Prop} {l l' : List Str} {x : Str} (hp : l.Perm l') (h : Best p l x)
    (ht : ∀ y ∈ l, p y → y.length = x.length → y = x) : Best p l' x := by
  obtain ⟨pre, post, e, hx, h1, h2⟩ := h
  have hle : ∀ y ∈ l, p y → y.length ≤ x.length := by
    intro y hy hpy
    rw [e] at hy
    rcases List.mem_append.1 hy with hy | hy
    · exact Nat.le_of_lt (h1 y hy hpy)
    · rcases List.mem_cons.1 hy with rfl | hy
      · exact Nat.le_refl _
      · exact h2 y hy hpy
  have hm : x ∈ l' := hp.mem_iff.1 (by rw [e]; simp)
  obtain ⟨pre', post', e', hno⟩ := List.eq_append_cons_of_mem hm
  refine ⟨pre', post', e', hx, fun y hy hpy => ?_, fun y hy hpy => ?_⟩
  · have hyl : y ∈ l := hp.mem_iff.2 (by rw [e']; simp [hy])
    rcases Nat.lt_or_eq_of_le (hle y hyl hpy) with hlt | heq
    · exact hlt
    · exact absurd (ht y hyl hpy heq ▸ hy) hno
  · exact hle y (hp.mem_iff.2 (by rw [e']; simp [hy])) hpy

theorem best_in {p : Str → Prop} {l : List Str} {x : Str} (h : Best p l x) : x ∈ l ∧ p x := by
  obtain ⟨pre, post, e, hx, _⟩ := h
  exact ⟨by rw [e]; simp, hx⟩

theorem chosen_reordered (h : Reordered d d') {build e : Str} (ht : NoTie d build) (hc : Chosen d build e) : Chosen d' build e := by
  cases hc with
  | name hb =>
    obtain ⟨hm, ho⟩ := best_in hb
    exact .name (best_perm h.1 hb fun y hy hpy hl => ht y e (.inl ⟨hy, hm⟩) hpy ho hl)
  | «alias» hno hb hk hv =>
    obtain ⟨hm, ho⟩ := best_in hb
    exact .alias (fun e' he' => hno e' (h.1.mem_iff.2 he'))
      (best_perm (reordered_values h) hb fun y hy hpy hl => ht y _ (.inr ⟨hy, hm⟩) hpy ho hl) (h.1.mem_iff.1 hk) ((h.2 _ hk).mem_iff.1 hv)

theorem noTie_reordered (h : Reordered d d') {build : Str} (ht : NoTie d build) : NoTie d' build := by
  intro x y hxy
  refine ht x y ?_
  rcases hxy with ⟨hx, hy⟩ | ⟨hx, hy⟩
  · exact .inl ⟨h.1.mem_iff.2 hx, h.1.mem_iff.2 hy⟩
  · exact .inr ⟨(reordered_values h).mem_iff.2 hx, (reordered_values h).mem_iff.2 hy⟩

theorem simpleNames_reordered (h : Reordered d d') (hs : SimpleNames d) : SimpleNames d' :=
  fun x hx => hs x (hx.imp h.1.mem_iff.2 (reordered_values h).mem_iff.2)

/-- C88: two files that list the environments of a system, and the aliases of each, in different orders: an
EnvKeywordParser can be made from one if and only if it can be made from the other. -/
theorem C88_constructor {build sys : Str} {o1 o1' : CObj} (hr : edGetItem E n sys (Obj.fresh E ()) = (.ok d, o1))
    (hr' : edGetItem E' n' sys (Obj.fresh E' ()) = (.ok d', o1')) (h : Reordered d d') :
    ((∃ k, EKP.new E n build sys = .ok k) ∧ ∃ k, EKP.new E' n' build sys = .ok k) ∨
    (EKP.new E n build sys = .exc .systemExit ∧ EKP.new E' n' build sys = .exc .systemExit) := by
  have e : (AllAcceptable d ∧ (allValues d).Nodup) ↔ (AllAcceptable d' ∧ (allValues d').Nodup) :=
    ⟨fun ha => ⟨reordered_acceptable h ha.1, (reordered_values h).nodup_iff.1 ha.2⟩, fun ha => ⟨reordered_acceptable (reordered_symm h) ha.1, (reordered_values h).nodup_iff.2 ha.2⟩⟩
  obtain ⟨c1, c2⟩ := (C52_constructor (E := E) (n := n) build sys).1 d o1 hr
  obtain ⟨c1', c2'⟩ := (C52_constructor (E := E') (n := n') build sys).1 d' o1' hr'
  by_cases ha : AllAcceptable d ∧ (allValues d).Nodup
  · exact .inl ⟨c1 ha, c1' (e.1 ha)⟩
  · exact .inr ⟨c2 ha, c2' fun hb => ha (e.2 hb)⟩

/-- C88: and both give the same environment, or exit both, if no two names or aliases in the build name have the same
length. -/
theorem C88_environment {build sys : Str} {H : Host} {o1 o1' : CObj} (hr : edGetItem E n sys (Obj.fresh E ()) = (.ok d, o1))
    (hr' : edGetItem E' n' sys (Obj.fresh E' ()) = (.ok d', o1')) (h : Reordered d d') (hs : SimpleNames d) (ht : NoTie d build)
    {k k' : EKP} (hk : EKP.new E n build sys = .ok k) (hk' : EKP.new E' n' build sys = .ok k') :
    (EKP.qualifiedEnvName E n H k).1 = (EKP.qualifiedEnvName E' n' H k').1 := by
  obtain ⟨_, _, hr1, ha, hn, he⟩ := ekpNew_ok hk
  rw [hr] at hr1; cases hr1
  obtain ⟨_, _, hr1, ha', hn', he'⟩ := ekpNew_ok hk'
  rw [hr'] at hr1; cases hr1
  rcases qualified_first (H := H) hr ha hn hs he with ⟨e, h1, h2⟩ | ⟨h1, h2⟩
  · rcases qualified_first (H := H) hr' ha' hn' (simpleNames_reordered h hs) he' with ⟨e', h1', h2'⟩ | ⟨h1', h2'⟩
    · rw [h2, h2', C52_unique hn' (chosen_reordered h ht h1) h1']
    · exact absurd (chosen_reordered h ht h1) (h1' e)
  · rcases qualified_first (H := H) hr' ha' hn' (simpleNames_reordered h hs) he' with ⟨e', h1', h2'⟩ | ⟨h1', h2'⟩
    · exact absurd (chosen_reordered (reordered_symm h) (noTie_reordered h ht) h1') (h1 e')
    · rw [h2, h2']

/-- C88: two files with the same systems in different orders, and the same systems that the host name fits: if it
fits one system at most, both give the same system, or exit both. -/
theorem C88_system {H : Host} (hn : E.cfg.sectionNames.Nodup) (hn' : E'.cfg.sectionNames.Nodup)
    (hs : ∀ s, Systems E s → E.cfg.hasSection s = true) (hs' : ∀ s, Systems E' s → E'.cfg.hasSection s = true)
    (hr : Readable E n H (systemList E) (Obj.fresh E ())) (hr' : Readable E' n' H (systemList E') (Obj.fresh E' ()))
    (hp : (systemList E).Perm (systemList E')) (hh : ∀ s ∈ systemList E, (HostIs E H s ↔ HostIs E' H s))
    (hone : ∀ s ∈ systemList E, ∀ t ∈ systemList E, HostIs E H s → HostIs E H t → s = t) (build : Str) (force : Bool) :
    (DS.systemName E n H (DS.new E build force)).1 = (DS.systemName E' n' H (DS.new E' build force)).1 := by
  obtain ⟨host, f, a1, a2, a3⟩ := C54_system hn hs hr build force
  obtain ⟨host', f', b1, b2, b3⟩ := C54_system hn' hs' hr' build force
  have eh : host = host' := by
    cases host with
    | none =>
      cases host' with
      | none => rfl
      | some x =>
        obtain ⟨pre, post, e, hx, _⟩ := f'
        have hm : x ∈ systemList E := hp.mem_iff.2 (by rw [e]; simp)
        exact absurd ((hh x hm).2 hx) (f x hm)
    | some x =>
      obtain ⟨pre, post, e, hx, _⟩ := f
      have hm : x ∈ systemList E := by rw [e]; simp
      cases host' with
      | none => exact absurd ((hh x hm).1 hx) (f' x (hp.mem_iff.1 hm))
      | some y =>
        obtain ⟨pre', post', e', hy, _⟩ := f'
        have hm' : y ∈ systemList E := hp.mem_iff.2 (by rw [e']; simp)
        rw [hone x hm y hm' hx ((hh y hm').2 hy)]
  subst eh
  have hsys : ∀ s, Systems E s ↔ Systems E' s := by
    intro s
    have h1 : s ∈ systemList E ↔ Systems E s := by simp [systemList, Systems]
    have h2 : s ∈ systemList E' ↔ Systems E' s := by simp [systemList, Systems]
    rw [← h1, ← h2]; exact hp.mem_iff
  have hnm : ∀ s, NamedIn E H build s ↔ NamedIn E' H build s := fun s => and_congr (hsys s) Iff.rfl
  by_cases h1 : ∃ s t, s ≠ t ∧ NamedIn E H build s ∧ NamedIn E H build t
  · obtain ⟨s, t, hne, c1, c2⟩ := h1
    rw [a1 ⟨s, t, hne, c1, c2⟩, b1 ⟨s, t, hne, (hnm s).1 c1, (hnm t).1 c2⟩]
  · by_cases h2 : ∃ s, NamedIn E H build s
    · obtain ⟨s, c⟩ := h2
      have hu : ∀ t, NamedIn E H build t ↔ t = s := fun t =>
        ⟨fun ht => Classical.byContradiction fun hne => h1 ⟨t, s, hne, ht, c⟩, fun e => e ▸ c⟩
      rw [a3 s hu, b3 s fun t => (hnm t).symm.trans (hu t)]
    · rw [a2 fun s hc => h2 ⟨s, hc⟩, b2 fun s hc => h2 ⟨s, (hnm s).2 hc⟩]

/-! An example: the environments of C52 the other way round, and a system file in both orders. -/

/--
```
[sys-1]
intel-19:
    default-env
intel-18.0.5-mpich:
    intel
    intel-18
```
-/
def envsCfg' : Cfg where
  sections := [(py!"sys-1", [(py!"intel-19", some py!"\ndefault-env"), (py!"intel-18.0.5-mpich", some py!"\nintel\nintel-18")])]

/-- The name from the other file. -/
def nameFor' (build sys : Str) : Out Str :=
  match EKP.new (cls envsCfg') 10 build sys with
  | .ok k => (EKP.qualifiedEnvName (cls envsCfg') 10 host0 k).1
  | .exc e => .exc e
  | .diverge => .diverge

example : nameFor py!"intel_intel-18" py!"sys-1" = .ok py!"sys-1_intel-18.0.5-mpich" ∧
    nameFor' py!"intel_intel-18" py!"sys-1" = .ok py!"sys-1_intel-18.0.5-mpich" ∧
    nameFor py!"gnu" py!"sys-1" = .exc .systemExit ∧ nameFor' py!"gnu" py!"sys-1" = .exc .systemExit := by decide +kernel

/-- The hypotheses of the first two theorems are met. -/
example : ∃ d d' o1 o1', edGetItem (cls envsCfg) 10 py!"sys-1" (Obj.fresh (cls envsCfg) ()) = (.ok d, o1) ∧
    edGetItem (cls envsCfg') 10 py!"sys-1" (Obj.fresh (cls envsCfg') ()) = (.ok d', o1') ∧
    Reordered d d' ∧ SimpleNames d ∧ NoTie d py!"intel_intel-18" := by
  refine ⟨_, _, _, _, rfl, rfl, ⟨List.isPerm_iff.1 (by decide +kernel), fun k hk => List.isPerm_iff.1 ?_⟩, ?_, ?_⟩
  · revert k; decide +kernel
  · intro x hx
    have key : ∀ x ∈ [py!"intel-18.0.5-mpich", py!"intel-19"] ++ [py!"intel-18", py!"intel", py!"default-env"],
      ∀ c ∈ x, c ∉ ['^', '$', '*', '+', '?', '{', '}', '[', ']', '\\', '|', '(', ')'] := by decide +kernel
    exact key x (List.mem_append.2 hx)
  · intro x y hxy hx hy hl
    have k1 : ∀ x ∈ [py!"intel-18.0.5-mpich", py!"intel-19"], ∀ y ∈ [py!"intel-18.0.5-mpich", py!"intel-19"],
      x.length = y.length → x = y := by decide +kernel
    have k2 : ∀ x ∈ [py!"intel-18", py!"intel", py!"default-env"], ∀ y ∈ [py!"intel-18", py!"intel", py!"default-env"],
      x.length = y.length → x = y := by decide +kernel
    rcases hxy with ⟨h1, h2⟩ | ⟨h1, h2⟩
    · exact k1 x h1 y h2 hl
    · exact k2 x h1 y h2 hl

/-- With a tie the order matters. -/
example : (match EKP.new (cls { sections := [(py!"s", [(py!"aa", some []), (py!"bb", some [])])] }) 10 py!"aa_bb" py!"s" with
      | .ok k => (EKP.qualifiedEnvName (cls { sections := [(py!"s", [(py!"aa", some []), (py!"bb", some [])])] }) 10 host0 k).1
      | _ => .diverge) = .ok py!"s_aa" ∧
    (match EKP.new (cls { sections := [(py!"s", [(py!"bb", some []), (py!"aa", some [])])] }) 10 py!"aa_bb" py!"s" with
      | .ok k => (EKP.qualifiedEnvName (cls { sections := [(py!"s", [(py!"bb", some []), (py!"aa", some [])])] }) 10 host0 k).1
      | _ => .diverge) = .ok py!"s_bb" := by decide +kernel

/-- The systems of C54 the other way round. -/
def systemsCfg' : Cfg where
  sections := [(py!"machine-2", [(py!"node-2", some [])]), (py!"machine-1", [(py!"login.*", some []), (py!"node-1  # compute nodes", some [])])]

/-- The system from the other file. -/
def systemFor' (build : Str) (force : Bool) : Out (Option Str) :=
  (DS.systemName (cls systemsCfg') 10 host1 (DS.new (cls systemsCfg') build force)).1

example : systemFor py!"gnu" false = .ok (some py!"machine-1") ∧ systemFor' py!"gnu" false = .ok (some py!"machine-1") ∧
    systemFor py!"machine-2_gnu" false = .exc .systemExit ∧ systemFor' py!"machine-2_gnu" false = .exc .systemExit := by decide +kernel

theorem hostIs_read {E : Env Unit Unit} {H : Host} {n : Nat} {s : Str} {d : Options} {o1 : CObj} {b : Bool} (hs : E.cfg.hasSection s = true)
    (hr : edGetItem E n s (Obj.fresh E ()) = (.ok d, o1)) (h : anyKey H ((Dict.keys d).map cleanKey) = .ok b) : b = true ↔ HostIs E H s :=
  hostIs_iff (read_resolved hs hr) h

/-- The hypotheses of the last theorem are met (those about the first file alone are shown with C54): both files have
the same systems, and the host is one of them only. -/
example : (cls systemsCfg').cfg.sectionNames.Nodup ∧
    Readable (cls systemsCfg') 10 host1 (systemList (cls systemsCfg')) (Obj.fresh (cls systemsCfg') ()) ∧
    (systemList (cls systemsCfg)).Perm (systemList (cls systemsCfg')) ∧
    (∀ s ∈ systemList (cls systemsCfg), (HostIs (cls systemsCfg) host1 s ↔ HostIs (cls systemsCfg') host1 s)) ∧
    (∀ s ∈ systemList (cls systemsCfg), ∀ t ∈ systemList (cls systemsCfg),
      HostIs (cls systemsCfg) host1 s → HostIs (cls systemsCfg) host1 t → s = t) := by
  have a1 : true = true ↔ HostIs (cls systemsCfg) host1 py!"machine-1" := hostIs_read (n := 10) rfl rfl (by decide +kernel)
  have a2 : false = true ↔ HostIs (cls systemsCfg) host1 py!"machine-2" := hostIs_read (n := 10) rfl rfl (by decide +kernel)
  have b1 : true = true ↔ HostIs (cls systemsCfg') host1 py!"machine-1" := hostIs_read (n := 10) rfl rfl (by decide +kernel)
  have b2 : false = true ↔ HostIs (cls systemsCfg') host1 py!"machine-2" := hostIs_read (n := 10) rfl rfl (by decide +kernel)
  have hl : ∀ s ∈ systemList (cls systemsCfg), s = py!"machine-1" ∨ s = py!"machine-2" := by decide +kernel
  refine ⟨by decide +kernel, fun pre s post e => ?_, List.isPerm_iff.1 (by decide +kernel), fun s hs => ?_, fun s hs t ht h1 h2 => ?_⟩
  · change [py!"machine-2", py!"machine-1"] = pre ++ s :: post at e
    match pre, e with
    | [], e => cases e; exact ⟨_, rfl, fun k _ p _ => (Classical.em (Plain p)).imp id fun _ => ⟨false, rfl⟩⟩
    | [a], e => cases e; exact ⟨_, rfl, fun k _ p _ => (Classical.em (Plain p)).imp id fun _ => ⟨false, rfl⟩⟩
    | a :: b :: c, e => simp at e
  · rcases hl s hs with rfl | rfl
    · exact a1.symm.trans b1
    · exact a2.symm.trans b2
  · rcases hl s hs with rfl | rfl
    · rcases hl t ht with rfl | rfl
      · rfl
      · cases a2.2 h2
    · cases a2.2 h1

end
end CPE.Props
