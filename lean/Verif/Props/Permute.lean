import Verif.Props.Apart
/-
C86: any number of changes of places.
-/
namespace CPE.Props
open CPE CPE.Spec CPE.SetEnv CPE.SetEnv.Spec

theorem apart_symm {a b : Action} (h : Apart a b) : Apart b a := by
  cases h with
  | mk h1 h2 h3 h4 h5 => exact .mk (Ne.symm h1) h3 h2 h5 h4

theorem rearranged_cons {l l' : List Action} (x : Action) (h : Rearranged l l') : Rearranged (x :: l) (x :: l') := by
  induction h with
  | refl => exact .refl
  | @swap pre a b post _ hab ih => exact .swap (pre := x :: pre) ih hab

theorem rearranged_trans {l l' l'' : List Action} (h : Rearranged l l') (h' : Rearranged l' l'') : Rearranged l l'' := by
  induction h' with
  | refl => exact h
  | swap _ hab ih => exact .swap ih hab

theorem rearranged_perm {l l' : List Action} (hp : l.Perm l') (h : l.Pairwise Apart) : Rearranged l l' := by
  induction hp with
  | nil => exact .refl
  | cons x _ ih => exact rearranged_cons x (ih (List.pairwise_cons.1 h).2)
  | swap x y l => exact .swap (pre := []) .refl ((List.pairwise_cons.1 h).1 x (.head _))
  | trans p1 _ ih1 ih2 => exact rearranged_trans (ih1 h) (ih2 (h.perm p1 fun h => apart_symm h))

theorem rearranged_run (E : Env Shared Actions) {sys : Sys} (hl : Lawful sys) {l l' : List Action} (h : Rearranged l l')
    {ms : List (M Environ Int)} (hp : Program sys l ms) :
    ∃ ms', Program sys l' ms' ∧ (∀ a, a ∈ l' → a ∈ l) ∧ ∀ env i, (runAll E ms 0 env).1 = .ok i →
      (runAll E ms' 0 env).1 = .ok i ∧ SameVars (runAll E ms 0 env).2.1 (runAll E ms' 0 env).2.1 ∧
        (runAll E ms 0 env).2.2 = (runAll E ms' 0 env).2.2 := by
  induction h with
  | refl => exact ⟨ms, hp, fun _ h => h, fun env i h => ⟨h, fun _ => rfl, rfl⟩⟩
  | @swap pre a b post _ hab ih =>
    obtain ⟨ms1, hp1, hin, hr⟩ := ih
    obtain ⟨m1, m2, rfl, p1, p2⟩ := program_split hp1
    cases p2 with
    | cons ha p2 =>
      cases p2 with
      | cons hb p3 =>
        rename_i ma mb ms2
        refine ⟨m1 ++ mb :: ma :: ms2, program_join p1 (.cons hb (.cons ha p3)), fun c hm => hin c ?_, fun env i h => ?_⟩
        · simp only [List.mem_append, List.mem_cons] at hm ⊢
          rcases hm with h | h | h | h
          · exact .inl h
          · exact .inr (.inr (.inl h))
          · exact .inr (.inl h)
          · exact .inr (.inr (.inr h))
        · obtain ⟨r1, r2, r3⟩ := hr env i h
          obtain ⟨q1, q2, q3⟩ := runAll_swap_in E hl hab ha hb ms2 (program_vars hl p3) m1 0 env r1
          exact ⟨q1, fun m => (r2 m).trans (q2 m), r3.trans q3⟩

/-- C86: a list that is rearranged by any number of changes of places, each of two neighbours that are apart. -/
theorem C86_rearranged {sys : Sys} (hl : Lawful sys) (E : Env Shared Actions) {n : Nat} {s s' : Str} {S S' : State}
    {x x' : Out (Dict Str (Option Str))} {o o' : Obj Shared Actions}
    (hg : edGetItem E n s S.obj = (x, o)) (hx : (∃ v, x = .ok v) ∨ x = .exc .keyError)
    (hg' : edGetItem E n s' S'.obj = (x', o')) (hx' : (∃ v, x' = .ok v) ∨ x' = .exc .keyError)
    (henv : S'.environ = S.environ) {l l' : List Action} (hab : Rearranged l l')
    (hlist : Dict.get? o.self s = some l) (hlist' : Dict.get? o'.self s' = some l')
    {ms : List (M Environ Int)} (hp : Program sys l ms) (hc : ∀ c ∈ l, Clean c) {i : Int}
    {T : State} (h : SetEnv.apply sys E n s S = (.ok i, T)) :
    ∃ T' notes, SetEnv.apply sys E n s' S' = (.ok i, T') ∧ SameVars T.environ T'.environ ∧
      T.obj.out = o.out ++ notes ∧ T'.obj.out = o'.out ++ notes := by
  have h1 := C48_apply sys E S hg hx hlist hp hc
  obtain ⟨ms', hp', hin, hr⟩ := rearranged_run E hl hab hp
  have h2 := C48_apply sys E S' hg' hx' hlist' hp' fun c hm => hc c (hin c hm)
  rw [h] at h1
  obtain ⟨q1, q2, q3⟩ := hr S.environ i (congrArg Prod.fst h1).symm
  rw [henv] at h2
  have hT : T = _ := congrArg Prod.snd h1
  refine ⟨_, (runAll E ms' 0 S.environ).2.2, h2.trans (Prod.ext q1 rfl), ?_, ?_, ?_⟩
  · rw [hT]; exact q2
  · rw [hT]; dsimp only; rw [q3]
  · rfl

/-- C86: in particular, if any two actions of a list are apart, every order of them will do. -/
theorem C86_any_order {sys : Sys} (hl : Lawful sys) (E : Env Shared Actions) {n : Nat} {s s' : Str} {S S' : State}
    {x x' : Out (Dict Str (Option Str))} {o o' : Obj Shared Actions}
    (hg : edGetItem E n s S.obj = (x, o)) (hx : (∃ v, x = .ok v) ∨ x = .exc .keyError)
    (hg' : edGetItem E n s' S'.obj = (x', o')) (hx' : (∃ v, x' = .ok v) ∨ x' = .exc .keyError)
    (henv : S'.environ = S.environ) {l l' : List Action} (hab : l.Pairwise Apart) (hperm : l.Perm l')
    (hlist : Dict.get? o.self s = some l) (hlist' : Dict.get? o'.self s' = some l')
    {ms : List (M Environ Int)} (hp : Program sys l ms) (hc : ∀ c ∈ l, Clean c) {i : Int}
    {T : State} (h : SetEnv.apply sys E n s S = (.ok i, T)) :
    ∃ T' notes, SetEnv.apply sys E n s' S' = (.ok i, T') ∧ SameVars T.environ T'.environ ∧
      T.obj.out = o.out ++ notes ∧ T'.obj.out = o'.out ++ notes :=
  C86_rearranged hl E hg hx hg' hx' henv (rearranged_perm hperm hab) hlist hlist' hp hc h

/-- Three actions, any two of them apart, in the opposite order. -/
def permuteC : Action := .envvar py!"envvar_unset" py!"TMP" none

def permuteCfg : Cfg where
  sections := [(py!"P", [(py!"envvar-set WHO", some py!"me"), (py!"envvar-append LIB", some py!"${HOME}/bin"), (py!"envvar-unset TMP", none)]),
    (py!"Q", [(py!"envvar-unset TMP", none), (py!"envvar-append LIB", some py!"${HOME}/bin"), (py!"envvar-set WHO", some py!"me")])]

example :
    let E := env permuteCfg exampleSettings
    let S := State.fresh E exampleEnviron []
    ∃ T T', SetEnv.apply exampleSys E 9 py!"P" S = (.ok 0, T) ∧ SetEnv.apply exampleSys E 9 py!"Q" S = (.ok 0, T') ∧
      SameVars T.environ T'.environ := by
  intro E S
  have hP : SetEnv.apply exampleSys E 9 py!"P" S = (.ok 0, (SetEnv.apply exampleSys E 9 py!"P" S).2) := pair_eq (by decide +kernel)
  have gP : edGetItem E 9 py!"P" S.obj = (.ok [], (edGetItem E 9 py!"P" S.obj).2) := pair_eq (by decide +kernel)
  have gQ : edGetItem E 9 py!"Q" S.obj = (.ok [], (edGetItem E 9 py!"Q" S.obj).2) := pair_eq (by decide +kernel)
  have lP : Dict.get? (edGetItem E 9 py!"P" S.obj).2.self py!"P" = some [apartA, apartB, permuteC] := by decide +kernel
  have lQ : Dict.get? (edGetItem E 9 py!"Q" S.obj).2.self py!"Q" = some [permuteC, apartB, apartA] := by decide +kernel
  have hp : Program exampleSys [apartA, apartB, permuteC] _ :=
    .cons (.envvar (.two (op := py!"set") (by decide) (by decide))) (.cons (.envvar (.two (op := py!"append") (by decide) (by decide)))
      (.cons (.unset .unset) .nil))
  have hc : ∀ a ∈ [apartA, apartB, permuteC], Clean a := by
    intro a ha
    simp only [List.mem_cons, List.not_mem_nil, or_false, apartA, apartB, permuteC] at ha
    rcases ha with rfl | rfl | rfl <;> simp [Clean, Readable] <;> decide
  have ac : Apart apartA permuteC := by
    refine .mk (by decide +kernel) (fun w h => ?_) (fun w h => ?_) (fun h => absurd h (by decide +kernel)) (fun h => absurd h (by decide +kernel))
    · cases h; decide +kernel
    · cases h
  have bc : Apart apartB permuteC := by
    refine .mk (by decide +kernel) (fun w h => ?_) (fun w h => ?_) (fun h => absurd h (by decide +kernel)) (fun h => absurd h (by decide +kernel))
    · cases h; decide +kernel
    · cases h
  have hpw : [apartA, apartB, permuteC].Pairwise Apart := by
    simp only [List.pairwise_cons, List.mem_cons, List.not_mem_nil, or_false, List.Pairwise.nil, and_true]
    exact ⟨by rintro a (rfl | rfl) <;> first | exact apart_ab | exact ac, by rintro a rfl; exact bc, fun _ h => h.elim⟩
  obtain ⟨T', _, h1, h2, _⟩ := C86_any_order example_lawful E gP (.inl ⟨_, rfl⟩) gQ (.inl ⟨_, rfl⟩) rfl hpw
    (List.isPerm_iff.1 (by decide +kernel)) lP lQ hp hc hP
  exact ⟨_, T', hP, h1, h2⟩

end CPE.Props
