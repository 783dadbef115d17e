import Verif.Props.GenConfig
/-
C82: a canonical name stands for itself. The configuration that a build name stands for is the name of a section of
config-specs.ini, and users take it as a build name again.
-/
namespace CPE.Props
open CPE CPE.Spec CPE.SetEnv CPE.KW CPE.KW.Spec

section
variable {T : Tool} {b c s : Str} {f : Bool} {d dF : Options} {fl : List Flag}

theorem fits_refl (x : Str) : Fits x x := by
  induction x with
  | nil => exact .nil
  | cons a x ih => exact .eq ih

theorem selectionText_start (l : List (Str × Sel)) : selectionText l = [] ∨ ∃ r, selectionText l = '_' :: r := by
  induction l with
  | nil => exact .inl rfl
  | cons p l ih =>
    obtain ⟨k, v⟩ := p
    cases v with
    | one o => exact .inr ⟨_, rfl⟩
    | many os =>
      cases os with
      | nil => exact ih
      | cons o os => exact .inr ⟨_, rfl⟩

/-- The system of a build name is that of the host, unless the caller insists. -/
theorem system_again (hn : T.systems.sectionNames.Nodup) (hs : ∀ t, Systems (cls T.systems) t → T.systems.hasSection t = true)
    (hr : Readable (cls T.systems) T.fuel T.host (systemList (cls T.systems)) (Obj.fresh (cls T.systems) ()))
    (hb : SystemIs T b f s) (hc : ∀ t, NamedIn (cls T.systems) T.host c t ↔ t = s) : SystemIs T c f s := by
  obtain ⟨host, h1, b1, b2, b3⟩ := C54_system (E := cls T.systems) hn hs hr b f
  obtain ⟨host', h1', c1, c2, c3⟩ := C54_system (E := cls T.systems) hn hs hr c f
  cases C54_host_unique h1 h1'
  have hb' : (DS.systemName (cls T.systems) T.fuel T.host (DS.new (cls T.systems) b f)).1 = .ok (some s) := hb
  have key : host = some s ∨ f = true := by
    by_cases hx : ∃ t, NamedIn (cls T.systems) T.host b t
    · obtain ⟨t, ht⟩ := hx
      by_cases hy : ∃ u, NamedIn (cls T.systems) T.host b u ∧ u ≠ t
      · obtain ⟨u, hu, hut⟩ := hy
        rw [b1 ⟨u, t, hut, hu, ht⟩] at hb'; cases hb'
      · have := b3 t fun u => ⟨fun hu => Classical.byContradiction fun h => hy ⟨u, hu, h⟩, fun h => h ▸ ht⟩
        rw [this] at hb'
        split at hb'
        · rename_i h
          cases hb'; exact h
        · cases hb'
    · have := b2 fun t ht => hx ⟨t, ht⟩
      rw [this] at hb'
      split at hb'
      · cases hb'
      · cases hb'; exact .inl rfl
  show (DS.systemName (cls T.systems) T.fuel T.host (DS.new (cls T.systems) c f)).1 = .ok (some s)
  rw [c3 s hc, if_pos key]

/-- C82: the environment. If the build name `b` stands for the environment `q` of the system `s`, then `q` is the system,
'_' and a name `e` of the system's section, and every build name that begins with `q` (followed by nothing or by '_'), names `s` and
no other system, and holds no other environment name of the system that is as long as `e`, stands for `q` too. -/
theorem C82_environment (hn : T.systems.sectionNames.Nodup) (hs : ∀ t, Systems (cls T.systems) t → T.systems.hasSection t = true)
    (hr : Readable (cls T.systems) T.fuel T.host (systemList (cls T.systems)) (Obj.fresh (cls T.systems) ()))
    (hsys : (LE.getSystemName T (LE.new b f)).1 = .ok (some s)) (hsec : T.envs.hasSection s = true)
    (hd : Resolved (cls T.envs) s d) (hsimple : SimpleNames d) {q : Str}
    (hq : (LE.getParsedEnvName T (LE.new b f)).1 = .ok q) :
    ∃ e, e ∈ Dict.keys d ∧ Chosen d b e ∧ q = s ++ py!"_" ++ e ∧
      ∀ rest, (rest = [] ∨ ∃ r, rest = '_' :: r) →
        (∀ t, NamedIn (cls T.systems) T.host (q ++ rest) t ↔ t = s) →
        (∀ y ∈ Dict.keys d, y ≠ e → Occurs y (q ++ rest) → y.length < e.length) →
        (LE.getParsedEnvName T (LE.new (q ++ rest) f)).1 = .ok q := by
  rw [C55_system] at hsys
  obtain ⟨s', k, h1, h2, h3⟩ := (C55_environment b f q).1 hq
  rw [show (DS.systemName (cls T.systems) T.fuel T.host (DS.new (cls T.systems) b f)).1 = .ok (some s') from h1] at hsys
  cases hsys
  obtain ⟨dd, hdd, hc⟩ := C52_environment (E := cls T.envs) (H := T.host) hsec h2
  cases resolved_unique hd hdd
  obtain ⟨c1, c2⟩ := hc hsimple
  by_cases hx : ∃ e, Chosen d b e
  · obtain ⟨e, he⟩ := hx
    have hq' := c1 e he
    rw [h3] at hq'
    cases hq'
    have hmem : e ∈ Dict.keys d := by
      cases he with
      | name h => obtain ⟨pre, post, e0, _⟩ := h; rw [e0]; simp
      | «alias» _ _ h _ => exact h
    refine ⟨e, hmem, he, rfl, fun rest hrest hname hlong => ?_⟩
    rw [C55_environment]
    obtain ⟨dd, o1, g1, g2, g3, _⟩ := ekpNew_ok h2
    obtain ⟨k', hk'⟩ := ((C52_constructor (E := cls T.envs) (n := T.fuel) (s ++ py!"_" ++ e ++ rest) s).1 dd o1 g1).1 ⟨g2, g3⟩
    refine ⟨s, k', system_again hn hs hr h1 hname, hk', ?_⟩
    obtain ⟨dd', hdd', hc'⟩ := C52_environment (E := cls T.envs) (H := T.host) hsec hk'
    cases resolved_unique hd hdd'
    refine (hc' hsimple).1 e (.name ?_)
    have hocc : Occurs e (s ++ py!"_" ++ e ++ rest) :=
      ⟨s ++ py!"_", e, rest, rfl, fits_refl e, .inr ⟨s, rfl⟩, hrest.imp id .inr⟩
    obtain ⟨pre, post, e0, hpre⟩ := List.eq_append_cons_of_mem hmem
    refine ⟨pre, post, e0, hocc, fun y hy ho => ?_, fun y hy ho => ?_⟩
    · exact hlong y (by rw [e0]; simp [hy]) (fun h => hpre (h ▸ hy)) ho
    · by_cases h : y = e
      · exact Nat.le_of_eq (by rw [h])
      · exact Nat.le_of_lt (hlong y (by rw [e0]; simp [hy]) h ho)
  · rw [c2 fun e he => hx ⟨e, he⟩] at h3; cases h3

/-- C82: the configuration. `complete_config` is the system, '_', a name `e` of the system's section and the text `o` of the
selected options. Taken as a build name it stands for itself, with the same options, if it names `s` and no other system, holds no other
environment name of the system that is as long as `e`, and no option is a word of the name of the environment. -/
theorem C82_canonical (hn : T.systems.sectionNames.Nodup) (hs : ∀ t, Systems (cls T.systems) t → T.systems.hasSection t = true)
    (hr : Readable (cls T.systems) T.fuel T.host (systemList (cls T.systems)) (Obj.fresh (cls T.systems) ()))
    (hF : T.flags.hasSection py!"configure-flags" = true) (hR : Resolved (cls T.flags) py!"configure-flags" dF) (hD : Declares dF fl)
    (hw : ∀ o ∈ fl.flatMap Flag.options, o ≠ py!"SELECT_ONE" ∧ o ≠ py!"SELECT_MANY")
    (hsys : (LE.getSystemName T (LE.new b f)).1 = .ok (some s)) (hsec : T.envs.hasSection s = true)
    (hd : Resolved (cls T.envs) s d) (hsimple : SimpleNames d)
    (hc : (GC.completeConfig T (GC.new b f)).1 = .ok c) :
    ∃ e o, e ∈ Dict.keys d ∧ Chosen d b e ∧ OptionsAre T b o ∧ c = s ++ py!"_" ++ e ++ o ∧
      ((∀ t, NamedIn (cls T.systems) T.host c t ↔ t = s) →
       (∀ y ∈ Dict.keys d, y ≠ e → Occurs y c → y.length < e.length) →
       (∀ x ∈ fl.flatMap Flag.options, x ∉ splitChar '_' (s ++ py!"_" ++ e)) →
       OptionsAre T c o ∧ (GC.completeConfig T (GC.new c f)).1 = .ok c) := by
  obtain ⟨q, o, hq, ho, rfl⟩ := (C56_complete b f c).1 hc
  obtain ⟨e, h1, h2, rfl, h4⟩ := C82_environment hn hs hr hsys hsec hd hsimple ((C55_environment b f q).2 hq)
  obtain ⟨k, hk, hko⟩ := id ho
  obtain ⟨dd, o1, hrd, hres⟩ := C53_from_file (E := cls T.flags) hk hF
  cases resolved_unique hR hres
  obtain ⟨a1, a2, _⟩ := ckp_answers hk hrd
  rw [hko] at a2
  cases hl : selectionRes dF b with
  | exc x => rw [hl] at a2; cases a2
  | diverge => rw [hl] at a2; cases a2
  | ok l =>
    rw [hl] at a1 a2
    have ho' : o = selectionText l := by cases a2; rfl
    subst ho'
    refine ⟨e, _, h1, h2, ho, rfl, fun p1 p2 p3 => ?_⟩
    obtain ⟨k', hk'⟩ := (C53_constructor (E := cls T.flags) (n := T.fuel) (s ++ py!"_" ++ e ++ selectionText l)).1 _ _ hrd
    have hopt : OptionsAre T (s ++ py!"_" ++ e ++ selectionText l) (selectionText l) :=
      ⟨k', hk', (C53_idempotent hk hrd hD hw a1 p3 hk').2⟩
    refine ⟨hopt, (C56_complete _ _ _).2 ⟨_, _, ?_, hopt, rfl⟩⟩
    exact (C55_environment _ _ _).1 (h4 _ (selectionText_start l) p1 p2)

/-- C82: a name in which two systems are found is refused, also if it is the name of a configuration. -/
theorem C82_two_systems (hn : T.systems.sectionNames.Nodup) (hs : ∀ t, Systems (cls T.systems) t → T.systems.hasSection t = true)
    (hr : Readable (cls T.systems) T.fuel T.host (systemList (cls T.systems)) (Obj.fresh (cls T.systems) ()))
    {t u : Str} (htu : t ≠ u) (ht : NamedIn (cls T.systems) T.host c t) (hu : NamedIn (cls T.systems) T.host c u)
    (hk : ∃ k, CKP.new (cls T.flags) T.fuel c = .ok k) :
    (LE.getParsedEnvName T (LE.new c f)).1 = .exc .systemExit ∧ (GC.completeConfig T (GC.new c f)).1 = .exc .systemExit := by
  obtain ⟨host, _, c1, _⟩ := C54_system (E := cls T.systems) hn hs hr c f
  have h := ((C55_failures (T := T) c f .systemExit).1 (c1 ⟨t, u, htu, ht, hu⟩)).1
  obtain ⟨k, hk⟩ := hk
  exact ⟨h, (C56_failures c f .systemExit).2.1 k hk h⟩

end

/-! ### Concrete cases -/

/-- The environments of machine-1 in the example. -/
def envs1 : Options := [(py!"gnu-9-openmpi", some py!"gnu\ndefault-env"), (py!"intel-19", some py!"intel")]

/-- The systems of the example can be read. -/
theorem tool0_systems : tool0.systems.sectionNames.Nodup ∧ (∀ s, Systems (cls tool0.systems) s → tool0.systems.hasSection s = true) ∧
    Readable (cls tool0.systems) tool0.fuel tool0.host (systemList (cls tool0.systems)) (Obj.fresh (cls tool0.systems) ()) := by
  refine ⟨by decide +kernel, fun s hs => ?_, fun pre s post e => ?_⟩
  · have : s ∈ [py!"machine-1", py!"machine-2"] := hs.1
    rcases List.mem_cons.1 this with rfl | this
    · rfl
    · rcases List.mem_cons.1 this with rfl | this
      · rfl
      · cases this
  · change [py!"machine-1", py!"machine-2"] = pre ++ s :: post at e
    match pre, e with
    | [], e => cases e; exact ⟨_, rfl, fun k _ p _ => (Classical.em (Plain p)).imp id fun _ => ⟨false, rfl⟩⟩
    | [a], e => cases e; exact ⟨_, rfl, fun k _ p _ => (Classical.em (Plain p)).imp id fun _ => ⟨false, rfl⟩⟩
    | a :: b :: c, e => simp at e

/-- "teko_gnu" stands for "machine-1_gnu-9-openmpi_mpi_teko"; all hypotheses and conditions of the theorem hold, and so that
name stands for itself. -/
example : (GC.completeConfig tool0 (GC.new py!"teko_gnu" false)).1 = .ok py!"machine-1_gnu-9-openmpi_mpi_teko" ∧
    (GC.completeConfig tool0 (GC.new py!"machine-1_gnu-9-openmpi_mpi_teko" false)).1 = .ok py!"machine-1_gnu-9-openmpi_mpi_teko" := by
  have hc : (GC.completeConfig tool0 (GC.new py!"teko_gnu" false)).1 = .ok py!"machine-1_gnu-9-openmpi_mpi_teko" := by decide +kernel
  have hR : ∃ d, Resolved (cls tool0.flags) py!"configure-flags" d ∧ Declares d flags0 := by
    obtain ⟨d, o1, h1, h2⟩ : ∃ d o1, edGetItem (cls flagsCfg) 10 flagSection (Obj.fresh (cls flagsCfg) ()) = (.ok d, o1) ∧ Declares d flags0 := by
      refine ⟨_, _, rfl, ⟨rfl, ?_, ?_, ?_, ?_⟩⟩
      · decide +kernel
      · decide +kernel
      · intro k hk
        have hk' : k = py!"use-mpi" ∨ k = py!"packages" := by simpa using (show k ∈ [py!"use-mpi", py!"packages"] from hk)
        rcases hk' with rfl | rfl <;> exact ⟨by decide +kernel, by decide +kernel, by decide +kernel⟩
      · decide +kernel
    exact ⟨d, read_resolved (E := cls flagsCfg) rfl h1, h2⟩
  have hE : Resolved (cls tool0.envs) py!"machine-1" envs1 := by
    obtain ⟨o1, h⟩ : ∃ o1, edGetItem (cls toolEnvs) 10 py!"machine-1" (Obj.fresh (cls toolEnvs) ()) = (.ok envs1, o1) := ⟨_, rfl⟩
    exact read_resolved (E := cls toolEnvs) rfl h
  have hsimple : SimpleNames envs1 := by
    have h : ∀ x ∈ Dict.keys envs1 ++ allValues envs1, ∀ c ∈ x, c ∉ ['^', '$', '*', '+', '?', '{', '}', '[', ']', '\\', '|', '(', ')'] := by
      decide +kernel
    exact fun x hx => h x (List.mem_append.2 hx)
  obtain ⟨dF, hR, hD⟩ := hR
  obtain ⟨e, o, he, _, ho, hceq, hfix⟩ := C82_canonical tool0_systems.1 tool0_systems.2.1 tool0_systems.2.2 rfl hR hD (by decide +kernel)
    (b := py!"teko_gnu") (f := false) (s := py!"machine-1") (by decide +kernel) rfl hE hsimple hc
  have hkeys : Dict.keys envs1 = [py!"gnu-9-openmpi", py!"intel-19"] := by decide +kernel
  have heq : e = py!"gnu-9-openmpi" := by
    rw [hkeys] at he
    rcases List.mem_cons.1 he with h | h
    · exact h
    · cases List.mem_singleton.1 h
      exact absurd hceq fun h => absurd (congrArg (List.take 12) h) (by
        rw [List.append_assoc, List.append_assoc, show py!"machine-1" ++ (py!"_" ++ (py!"intel-19" ++ o)) = py!"machine-1_in" ++ (py!"tel-19" ++ o) from rfl,
          List.take_append_of_le_length (by decide)]
        decide +kernel)
  subst heq
  refine ⟨hc, (hfix (fun t => ?_) (fun y hy hne ho => ?_) (by decide +kernel)).2⟩
  · have hw : splitChar '_' (tool0.host.lower py!"machine-1_gnu-9-openmpi_mpi_teko") = [py!"machine-1", py!"gnu-9-openmpi", py!"mpi", py!"teko"] := by
      decide +kernel
    constructor
    · rintro ⟨⟨h1, _⟩, h2⟩
      rw [hw] at h2
      have h1 : t ∈ [py!"machine-1", py!"machine-2"] := h1
      rcases List.mem_cons.1 h1 with h | h
      · exact h
      · cases List.mem_singleton.1 h
        exact absurd h2 (by decide +kernel)
    · rintro rfl
      exact ⟨⟨by decide +kernel, by decide +kernel⟩, by rw [hw]; decide +kernel⟩
  · rw [hkeys] at hy
    rcases List.mem_cons.1 hy with h | h
    · exact absurd h hne
    · cases List.mem_singleton.1 h
      exact absurd (occurs_iff.2 ho) (by decide +kernel)

/-- The conditions are needed. Environments with an alias: the name "mpi_none" is found in the text of the options, "gnu_teko"
holds an option, and "arm_machine-2" a system. -/
def toolOdd : Tool := { tool0 with envs := { sections := [(py!"machine-1",
  [(py!"gnu-9", some py!"gnu"), (py!"mpi_none", none), (py!"gnu_teko", some py!"gt"), (py!"arm_machine-2", some py!"arm")])] } }

example : (GC.completeConfig toolOdd (GC.new py!"gnu" false)).1 = .ok py!"machine-1_gnu-9_mpi_none" ∧
    (GC.completeConfig toolOdd (GC.new py!"machine-1_gnu-9_mpi_none" false)).1 = .ok py!"machine-1_mpi_none_mpi_none" ∧
    (GC.completeConfig toolOdd (GC.new py!"gt" false)).1 = .ok py!"machine-1_gnu_teko_mpi_none" ∧
    (GC.completeConfig toolOdd (GC.new py!"gt_belos" false)).1 = .ok py!"machine-1_gnu_teko_mpi_belos" ∧
    (GC.completeConfig toolOdd (GC.new py!"machine-1_gnu_teko_mpi_belos" false)).1 = .ok py!"machine-1_gnu_teko_mpi_belos_teko" ∧
    (GC.completeConfig toolOdd (GC.new py!"arm" false)).1 = .ok py!"machine-1_arm_machine-2_mpi_none" ∧
    (GC.completeConfig toolOdd (GC.new py!"machine-1_arm_machine-2_mpi_none" false)).1 = .exc .systemExit := by decide +kernel

/-- The hypotheses of C82_two_systems hold. -/
example : NamedIn (cls toolOdd.systems) toolOdd.host py!"machine-1_arm_machine-2_mpi_none" py!"machine-1" ∧
    NamedIn (cls toolOdd.systems) toolOdd.host py!"machine-1_arm_machine-2_mpi_none" py!"machine-2" ∧
    ∃ k, CKP.new (cls toolOdd.flags) toolOdd.fuel py!"machine-1_arm_machine-2_mpi_none" = .ok k :=
  ⟨⟨⟨by decide +kernel, by decide +kernel⟩, by decide +kernel⟩, ⟨⟨by decide +kernel, by decide +kernel⟩, by decide +kernel⟩, ⟨_, rfl⟩⟩

end CPE.Props
