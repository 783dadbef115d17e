import Verif.Proofs.Scripts
/-
Steps of the script gen-config.sh.
-/
namespace CPE.KW.Script
open CPE CPE.Spec CPE.SetEnv CPE.KW CPE.KW.Spec

theorem mentioned_iff (m : Str) (args : List Str) : isSubstr m (joinStr py!" " args) = true ↔ Mentioned m args := by
  rw [isSubstr_iff]
  constructor
  · intro h t ht
    rw [separated_det ht]
    exact h
  · intro h
    exact h _ (joinStr_separated _ _)

theorem mentioned_false {m : Str} {args : List Str} (h : ¬ Mentioned m args) : isSubstr m (joinStr py!" " args) = false := by
  cases hc : isSubstr m (joinStr py!" " args) with
  | false => rfl
  | true => exact absurd ((mentioned_iff m args).1 hc) h

/-! ### Words of several arguments -/

theorem shell_append {a b : Str} {ws vs : List Str} (ha : ShellWords a ws) (hb : ShellWords b vs) : ShellWords (a ++ ' ' :: b) (ws ++ vs) := by
  induction ha with
  | nil => exact .space (by simp) hb
  | space hc _ ih => exact .space hc ih
  | @word w s ws h1 h2 h3 h4 ih =>
    rw [List.append_assoc]
    refine .word h1 h2 ?_ ih
    cases s with
    | nil => simp
    | cons d s => simpa using h3

/-- The words are parts of the text. -/
theorem shell_mem {t : Str} {ws : List Str} (h : ShellWords t ws) : ∀ w ∈ ws, ∀ c ∈ w, c ∈ t := by
  induction h with
  | nil => simp
  | space _ _ ih => exact fun w hw c hc => List.mem_cons_of_mem _ (ih w hw c hc)
  | @word u s ws h1 h2 h3 h4 ih =>
    intro w hw c hc
    rcases List.mem_cons.1 hw with rfl | hw
    · exact List.mem_append_left _ hc
    · exact List.mem_append_right _ (ih w hw c hc)

/-- The words of the words are the words. -/
theorem shell_solid {t : Str} {ws : List Str} (h : ShellWords t ws) : ws.flatMap (splitBlanks []) = ws := by
  induction h with
  | nil => rfl
  | space _ _ ih => exact ih
  | @word u s ws h1 h2 h3 h4 ih =>
    have : ShellWords u [u] := by
      have := ShellWords.word (s := []) h1 h2 (by simp) .nil
      rwa [List.append_nil] at this
    rw [List.flatMap_cons, (words_iff _ _).1 this, ih]
    rfl

theorem passed_words {args ws : List Str} (h : Passed args ws) : ShellWords (joinStr py!" " args) ws := by
  induction h with
  | nil => exact .nil
  | @cons a as ws l h1 h2 ih =>
    cases as with
    | nil =>
      cases h2
      rw [List.append_nil]
      exact h1
    | cons b bs =>
      rw [SetEnv.joinStr_cons_cons, List.append_assoc]
      exact shell_append h1 ih

theorem noPattern_joinStr {sep : Str} (hs : NoPattern sep) {args : List Str} (h : ∀ a ∈ args, NoPattern a) : NoPattern (joinStr sep args) := by
  induction args with
  | nil => exact fun c hc => by cases hc
  | cons a as ih =>
    cases as with
    | nil => exact h a (by simp)
    | cons b bs =>
      intro c hc
      rw [SetEnv.joinStr_cons_cons, List.append_assoc] at hc
      rcases List.mem_append.1 hc with hc | hc
      · exact h a (by simp) c hc
      · rcases List.mem_append.1 hc with hc | hc
        · exact hs c hc
        · exact ih (fun x hx => h x (List.mem_cons_of_mem _ hx)) c hc

theorem inside_join {x sep : Str} {l : List Str} (h : x ∈ l) : Inside x (joinStr sep l) := by
  induction l with
  | nil => cases h
  | cons a as ih =>
    cases as with
    | nil => exact ⟨[], [], by rw [List.mem_singleton.1 h]; simp [joinStr]⟩
    | cons b bs =>
      rw [SetEnv.joinStr_cons_cons]
      rcases List.mem_cons.1 h with rfl | h
      · exact ⟨[], sep ++ joinStr sep (b :: bs), by simp⟩
      · obtain ⟨u, v, huv⟩ := ih h
        exact ⟨a ++ sep ++ u, v, by rw [huv]; simp⟩

theorem catGives_iff (files : Dict Str Str) (p t : Str) : CatGives files p t ↔ t = Bash.dropLineEnds ((Dict.get? files p).getD []) := by
  have hlast : ∀ u : Str, (Bash.dropLineEnds u).getLast? ≠ some '\n' := by
    intro u h
    unfold Bash.dropLineEnds at h
    rw [List.getLast?_reverse] at h
    have := List.head?_dropWhile_not (p := (· == '\n')) (l := u.reverse)
    rw [h] at this
    simp at this
  have hdrop : ∀ t nl : Str, t.getLast? ≠ some '\n' → (∀ c ∈ nl, c = '\n') → Bash.dropLineEnds (t ++ nl) = t := by
    intro t nl h1 h2
    unfold Bash.dropLineEnds
    rw [List.reverse_append]
    have hd : ∀ l : Str, (∀ c ∈ l, c = '\n') → ∀ m : Str, (l ++ m).dropWhile (· == '\n') = m.dropWhile (· == '\n') := by
      intro l
      induction l with
      | nil => exact fun _ m => rfl
      | cons c l ih =>
        intro h m
        rw [List.cons_append, List.dropWhile_cons_of_pos (by simp [h c (by simp)])]
        exact ih (fun d hd => h d (List.mem_cons_of_mem _ hd)) m
    rw [hd _ (fun c hc => h2 c (List.mem_reverse.1 hc))]
    rw [← List.head?_reverse] at h1
    cases hr : t.reverse with
    | nil => rw [List.reverse_eq_nil_iff.1 hr]; rfl
    | cons c cs =>
      rw [hr] at h1
      rw [List.dropWhile_cons_of_neg (by simpa using h1), ← hr, List.reverse_reverse]
  constructor
  · rintro (⟨h1, rfl⟩ | ⟨nl, h1, h2, h3⟩)
    · rw [h1]; rfl
    · rw [h3]
      exact (hdrop t nl h2 h1).symm
  · rintro rfl
    cases hg : Dict.get? files p with
    | none => exact .inl ⟨hg, rfl⟩
    | some u =>
      obtain ⟨nl, h1, h2⟩ := lineEnds_split u
      exact .inr ⟨nl, h1, hlast u, hg.trans (congrArg some h2)⟩

/-! ### Unsetting variables -/

theorem unset_spec (xs : List Str) : ∀ s : Shell,
    (Shell.unset xs s).helper = s.helper ∧ (Shell.unset xs s).files = s.files ∧ (Shell.unset xs s).started = s.started ∧
    (Shell.unset xs s).ret = s.ret ∧
    (∀ x, x ∉ xs → Dict.get? (Shell.unset xs s).environ x = Dict.get? s.environ x ∧ Dict.get? (Shell.unset xs s).vars x = Dict.get? s.vars x) ∧
    (∀ x, (x ∈ xs ∨ Dict.get? s.environ x = none ∧ Dict.get? s.vars x = none) →
      Dict.get? (Shell.unset xs s).environ x = none ∧ Dict.get? (Shell.unset xs s).vars x = none) := by
  induction xs with
  | nil => exact fun s => ⟨rfl, rfl, rfl, rfl, fun _ _ => ⟨rfl, rfl⟩, fun x hx => hx.elim (fun h => by cases h) id⟩
  | cons y ys ih =>
    intro s
    obtain ⟨h1, h2, h3, h4, h5, h6⟩ := ih { s with environ := dictDel s.environ y, vars := dictDel s.vars y }
    refine ⟨h1, h2, h3, h4, fun x hx => ?_, fun x hx => ?_⟩
    · have hx' : ¬ (x = y ∨ x ∈ ys) := fun h => hx (List.mem_cons.2 h)
      rw [not_or] at hx'
      obtain ⟨a, b⟩ := h5 x hx'.2
      exact ⟨a.trans (get?_dictDel_ne _ hx'.1), b.trans (get?_dictDel_ne _ hx'.1)⟩
    · refine h6 x ?_
      by_cases hy : x = y
      · subst hy
        exact .inr ⟨get?_dictDel_self _ _, get?_dictDel_self _ _⟩
      · rcases hx with hx | ⟨ha, hb⟩
        · exact .inl ((List.mem_cons.1 hx).resolve_left hy)
        · exact .inr ⟨(get?_dictDel_ne _ hy).trans ha, (get?_dictDel_ne _ hy).trans hb⟩

/-! ### Where gen-config.sh has got to -/

/-- From the shell `s0` to the shell `s`, with the exported variables `env`, the started programs `ps` and the files `F`. -/
structure Gc (s0 s : Shell) (env : Environ) (ps : List Started) (F : Dict Str Str) (h : Bool) : Prop where
  environ : s.environ = env
  helper : s.helper = h
  started : s.started = s0.started ++ ps
  files : s.files = F
  vars : ∀ x, x ∉ genConfigNames → Dict.get? s.vars x = Dict.get? s0.vars x
  ret : s.ret = s0.ret

theorem Gc.init (s : Shell) : Gc s s s.environ [] s.files s.helper := ⟨rfl, rfl, (List.append_nil _).symm, rfl, fun _ _ => rfl, rfl⟩

section
variable {s0 s : Shell} {env : Environ} {ps : List Started} {F : Dict Str Str} {h : Bool}

theorem Gc.assign (g : Gc s0 s env ps F h) {x : Str} (hx : x ∈ genConfigNames) (hn : Dict.get? env x = none) (v : Str) :
    Gc s0 (Shell.assign x v s) env ps F h ∧ (Shell.assign x v s).find x = some v ∧
    ∀ y, y ≠ x → (Shell.assign x v s).find y = s.find y := by
  have hx' : Dict.get? s.environ x = none := by rw [g.environ]; exact hn
  rw [assign_eq hx']
  refine ⟨⟨g.environ, g.helper, g.started, g.files, fun y hy => ?_, g.ret⟩, ?_, fun y hy => ?_⟩
  · exact (Dict.get?_set_ne _ _ (fun hh : y = x => hy (hh ▸ hx))).trans (g.vars y hy)
  · exact (find_vars (s := { s with vars := Dict.set s.vars x v }) hx').trans (Dict.get?_set_self ..)
  · show (match Dict.get? s.environ y with | some v => some v | none => Dict.get? (Dict.set s.vars x v) y) = _
    rw [Dict.get?_set_ne _ _ hy]
    rfl

theorem Gc.start (g : Gc s0 s env ps F h) {W : Machine} {argv : List Str} {st : Nat} {F' : Dict Str Str} (hr : W.run argv env F = (st, F')) :
    ∃ s', start W argv s = (.ok st, s') ∧ Gc s0 s' env (ps ++ [{ argv := argv, environ := env, helper := h }]) F' h ∧
      ∀ x, s'.find x = s.find x := by
  refine ⟨{ s with files := F', started := s.started ++ [{ argv := argv, environ := s.environ, helper := s.helper }] }, ?_, ?_, ?_⟩
  · show (Out.ok (W.run argv s.environ s.files).1, ({ s with files := (W.run argv s.environ s.files).2, started := _ } : Shell)) = _
    rw [g.environ, g.files, hr]
  · exact ⟨g.environ, g.helper, by show s.started ++ _ = _; rw [g.started, g.helper, g.environ, List.append_assoc], rfl, g.vars, g.ret⟩
  · exact fun x => rfl

theorem Gc.user (g : Gc s0 s s0.environ ps F h) : s.get py!"USER" = s0.get py!"USER" := by
  unfold Shell.get Shell.find
  rw [g.environ, g.vars _ (by decide)]

/-- The end of gen-config.sh, from any shell. -/
theorem cleanupGc_ok {s : Shell} (hu : Solid (s.get py!"USER")) :
    ∃ s', cleanupGc s = (.ok 0, s') ∧ (∀ x, x ∉ genConfigNames → Dict.get? s'.environ x = Dict.get? s.environ x) ∧
      (∀ x ∈ genConfigNames, s'.find x = none) ∧ (∀ x, x ∉ genConfigNames → Dict.get? s'.vars x = Dict.get? s.vars x) ∧
      s'.helper = false ∧ s'.started = s.started ∧
      Removed s.files s'.files fun p => p = userFile (s.get py!"USER") py!".bash_cmake_args_loc" ∨ p = userFile (s.get py!"USER") py!".load_env_args" := by
  unfold cleanupGc
  rw [M.read_bind, M.bind_ok (removeUser (n := py!".bash_cmake_args_loc") hu (by unfold Solid; decide) s),
    M.bind_ok (removeUser (n := py!".load_env_args") hu (by unfold Solid; decide) _), M.bind_ok (modify_ok _ _), M.bind_ok (modify_ok _ _)]
  obtain ⟨_, h2, h3, _, h5, h6⟩ := unset_spec genConfigNames ({ s with files := dictDel (dictDel s.files (userFile (s.get py!"USER") py!".bash_cmake_args_loc")) (userFile (s.get py!"USER") py!".load_env_args") } : Shell)
  refine ⟨_, rfl, fun x hx => (h5 x hx).1, fun x hx => ?_, fun x hx => (h5 x hx).2, rfl, h3, fun p => ?_⟩
  · refine (find_vars ?_).trans ?_
    · exact (h6 x (.inl hx)).1
    · exact (h6 x (.inl hx)).2
  · have := removed_foldl [userFile (s.get py!"USER") py!".bash_cmake_args_loc", userFile (s.get py!"USER") py!".load_env_args"] s.files p
    simp only [List.mem_cons, List.not_mem_nil, or_false] at this
    exact this

theorem Gc.cleanup (g : Gc s0 s s0.environ ps F h) (hu : Solid (s0.get py!"USER")) :
    ∃ s', cleanupGc s = (.ok 0, s') ∧ GcLeaves s0 s' (s0.get py!"USER") s0.environ ps F := by
  obtain ⟨s', e, h1, h2, h3, h4, h5, h6⟩ := cleanupGc_ok (s := s) (by rw [g.user]; exact hu)
  refine ⟨s', e, ⟨fun x hx => ?_, h2, fun x hx _ => (h3 x hx).trans (g.vars x hx), h4, h5.trans g.started, ?_⟩⟩
  · rw [h1 x hx, g.environ]
  · rw [g.user, g.files] at h6; exact h6

theorem Gc.cleanupAnd (g : Gc s0 s s0.environ ps F h) (hu : Solid (s0.get py!"USER")) (n : Nat) :
    ∃ s', cleanupGcAnd n s = (.ok n, s') ∧ GcLeaves s0 s' (s0.get py!"USER") s0.environ ps F := by
  obtain ⟨s', e, hl⟩ := g.cleanup hu
  refine ⟨s', ?_, hl⟩
  unfold cleanupGcAnd
  rw [M.bind_ok e]
  rfl

theorem genDir_solid {W : Machine} (h : Solid W.genDir) : Solid (W.genDir ++ py!"/gen_config.py") := solid_append h (by unfold Solid; decide)

/-- The first steps: Python and the directory. -/
theorem gc_begin {W : Machine} (hfit : FitGc W s) (args : List Str) :
    ∃ s1, Gc s s1 s.environ [] s.files s.helper ∧ s1.find py!"script_dir" = some W.genDir ∧
      (s1.find py!"path_to_src" = s.find py!"path_to_src") ∧
      genConfig W args s = (if args = [] ∨ isSubstr py!"--help" (joinStr py!" " args) = true then do
          let s ← M.read
          let _ ← startPython W (s.get py!"script_dir" ++ py!"/gen_config.py") [py!"--help"]
          cleanupGcAnd 1
        else configure W args) s1 := by
  unfold genConfig
  rw [if_neg (by rw [hfit.sourced]; decide), M.read_bind, hfit.python]
  dsimp only
  rw [M.bind_ok (modify_ok _ s), if_neg (by decide), M.bind_ok (modify_ok _ _)]
  obtain ⟨g1, _, g2⟩ := (Gc.init s).assign (x := py!"python_too_old") (by decide) (hfit.unexported _ (.inl (by decide))) (if false = true then py!"True" else py!"False")
  obtain ⟨g3, g4, g5⟩ := g1.assign (x := py!"script_dir") (by decide) (hfit.unexported _ (.inl (by decide))) W.genDir
  exact ⟨_, g3, g4, (g5 _ (by decide)).trans (g2 _ (by decide)), rfl⟩

theorem gc_help {W : Machine} (hfit : FitGc W s) {args : List Str} (ha : args = [] ∨ Mentioned py!"--help" args) {st : Nat} {F : Dict Str Str}
    (hr : W.run (genCall W [py!"--help"]) s.environ s.files = (st, F)) :
    ∃ s', genConfig W args s = (.ok 1, s') ∧
      GcLeaves s s' (s.get py!"USER") s.environ [{ argv := genCall W [py!"--help"], environ := s.environ, helper := s.helper }] F := by
  obtain ⟨s1, g1, g2, _, g4⟩ := gc_begin hfit args
  rw [g4, if_pos (ha.imp id (mentioned_iff _ _).2), M.read_bind, get_find g2]
  obtain ⟨s2, e, g5, _⟩ := g1.start hr
  rw [M.bind_ok ((startPython_ok (genDir_solid hfit.dir) (by simp) [py!"--help"]).trans e)]
  exact g5.cleanupAnd hfit.user 1

theorem gc_configure {W : Machine} (hfit : FitGc W s) {args : List Str} (hne : args ≠ []) (hh : ¬ Mentioned py!"--help" args) :
    ∃ s1, Gc s s1 s.environ [] s.files s.helper ∧ s1.find py!"script_dir" = some W.genDir ∧
      s1.find py!"path_to_src" = s.find py!"path_to_src" ∧ genConfig W args s = configure W args s1 := by
  obtain ⟨s1, g1, g2, g3, g4⟩ := gc_begin hfit args
  refine ⟨s1, g1, g2, g3, ?_⟩
  rw [g4, if_neg (fun h => h.elim hne fun h => hh ((mentioned_iff _ _).1 h))]

theorem gc_no_source {W : Machine} (hfit : FitGc W s) {args : List Str} {d : Str} (hl : args.getLast? = some d) (hd : d ≠ []) (hs : Solid d)
    (hdir : W.isDir d = false) (hh : ¬ Mentioned py!"--help" args) (hf : ¬ Mentioned py!"--cmake-fragment" args) :
    ∃ s', genConfig W args s = (.ok 1, s') ∧ GcLeaves s s' (s.get py!"USER") s.environ [] s.files := by
  obtain ⟨s1, g1, _, _, g4⟩ := gc_configure hfit (args := args) (by rintro rfl; cases hl) hh
  rw [g4]
  unfold configure
  rw [hl]
  show ∃ s', (unaryTest (fun _ w => W.isDir w) d >>= _) s1 = _ ∧ _
  rw [M.bind_ok (unaryTest_ok hs hd s1), if_neg (by rw [hdir]; decide), if_pos (mentioned_false hf)]
  exact g1.cleanupAnd hfit.user 1

/-- The arguments are taken apart. -/
theorem gc_splits {W : Machine} (hfit : FitGc W s) {args init : List Str} {src : Option Str} (hne : args ≠ []) (hh : ¬ Mentioned py!"--help" args)
    (hsp : Splits W s args init src) :
    ∃ s1, Gc s s1 s.environ [] s.files s.helper ∧ s1.find py!"script_dir" = some W.genDir ∧ s1.find py!"path_to_src" = src ∧
      genConfig W args s = runGenConfig W args (joinStr py!" " init) s1 := by
  obtain ⟨s1, g1, g2, g3, g4⟩ := gc_configure hfit (args := args) hne hh
  rw [g4]
  unfold configure
  cases hsp with
  | @directory init d hs hd =>
    rw [List.getLast?_concat, List.dropLast_concat, Option.getD_some]
    have ht : unaryTest (fun _ w => W.isDir w) d s1 = (.ok true, s1) := by
      by_cases hd' : d = []
      · subst hd'; rfl
      · rw [unaryTest_ok hs hd' s1, hd.resolve_left hd']
    rw [M.bind_ok ht, if_pos rfl, M.bind_ok (modify_ok _ s1)]
    obtain ⟨g5, g6, g7⟩ := g1.assign (x := py!"path_to_src") (by decide) (hfit.unexported _ (.inl (by decide))) d
    exact ⟨_, g5, (g7 _ (by decide)).trans g2, g6, rfl⟩
  | @fragment args d hl hd hs hdir hm =>
    rw [hl]
    refine ⟨s1, g1, g2, g3, ?_⟩
    show (unaryTest (fun _ w => W.isDir w) d >>= _) s1 = _
    rw [M.bind_ok (unaryTest_ok hs hd s1), if_neg (by rw [hdir]; decide), if_neg (by rw [(mentioned_iff _ _).2 hm]; decide)]

theorem export_find {x v : Str} : (Shell.export x v s).find x = some v ∧ ∀ y, y ≠ x → (Shell.export x v s).find y = s.find y := by
  constructor
  · show (match Dict.get? (Dict.set s.environ x v) x with | some v => some v | none => _) = _
    rw [Dict.get?_set_self]
  · intro y hy
    show (match Dict.get? (Dict.set s.environ x v) y with | some v => some v | none => Dict.get? (dictDel s.vars x) y) = _
    rw [Dict.get?_set_ne _ _ hy, get?_dictDel_ne _ hy]
    rfl

/-- gen_config.py is run. -/
theorem gc_first {W : Machine} (hfit : FitGc W s) {args init ws : List Str} {src : Option Str} (hne : args ≠ []) (hh : ¬ Mentioned py!"--help" args)
    (hsp : Splits W s args init src) (hpat : ∀ a ∈ init, NoPattern a) (hpass : Passed init ws) {st : Nat} {F : Dict Str Str}
    (hr : W.run (genCall W ws) s.environ s.files = (st, F)) :
    ∃ s1 s2, s1.get py!"USER" = s.get py!"USER" ∧ Gc s s2 s.environ [{ argv := genCall W ws, environ := s.environ, helper := s.helper }] F s.helper ∧ s2.find py!"path_to_src" = src ∧
      genConfig W args s = (if st ≠ 0 then cleanupGc
        else do
          let f ← cat (tmpFile s1 py!".bash_cmake_args_loc")
          exportForLoadEnv f
          M.modify fun s => { s with helper := true }
          let save ← unquoted (tmpFile s1 py!".load_env_args")
          let st ← startPython W (W.genDir ++ py!"/gen_config.py") (ws ++ py!"--save-load-env-args" :: save)
          if st ≠ 0 then cleanupGc
          else do
            let a ← cat (tmpFile s1 py!".load_env_args")
            M.modify (Shell.assign py!"load_env_call_args" a)
            let as ← unquoted a
            let _ ← loadEnv W (if as = [] then args else as)
            cleanupGc) s2 := by
  obtain ⟨s1, g1, g2, g3, g4⟩ := gc_splits hfit hne hh hsp
  rw [g4]
  unfold runGenConfig
  rw [M.read_bind]
  rw [M.bind_ok (modify_ok _ s1), M.bind_ok (unquoted_ok (noPattern_joinStr (by unfold NoPattern; decide) hpat) _), (words_iff _ _).1 (passed_words hpass), get_find g2]
  obtain ⟨g5, _, g7⟩ := g1.assign (x := py!"gen_config_py_call_args") (by decide) (hfit.unexported _ (.inl (by decide))) (joinStr py!" " init)
  obtain ⟨s2, e, g8, g9⟩ := g5.start hr
  rw [M.bind_ok ((startPython_ok (genDir_solid hfit.dir) (by simp) ws).trans e)]
  exact ⟨s1, s2, g1.user, g8, (g9 _).trans ((g7 _ (by decide)).trans g3), rfl⟩

theorem tmpFile_solid {s1 : Shell} (hu : Solid (s1.get py!"USER")) {n : Str} (hn : Solid n) : Solid (tmpFile s1 n) := solid_userFile hu hn

/-- The two variables are exported. -/
theorem exported_ok {src : Option Str} (g : Gc s0 s s0.environ ps F h) (hsrc : s.find py!"path_to_src" = src) (f : Str) :
    ∃ s', exportForLoadEnv f s = (.ok (), s') ∧ s'.files = F ∧ s'.started = s0.started ++ ps ∧ s'.ret = s0.ret ∧ s'.helper = h ∧
      s'.environ = exportedEnv s0.environ f src ∧ (∀ x, x ∉ genConfigNames → Dict.get? s'.vars x = Dict.get? s0.vars x) := by
  unfold exportForLoadEnv
  rw [M.bind_ok (modify_ok _ s)]
  have hsrc' : (Shell.export py!"cmake_args_file" f s).find py!"path_to_src" = src := (export_find.2 _ (by decide)).trans hsrc
  refine ⟨_, modify_ok _ _, ?_⟩
  rw [hsrc']
  have hv : ∀ x, x ∉ genConfigNames → Dict.get? (dictDel s.vars py!"cmake_args_file") x = Dict.get? s0.vars x := fun x hx =>
    (get?_dictDel_ne _ (fun hh : x = _ => hx (by rw [hh]; decide))).trans (g.vars x hx)
  cases src with
  | none =>
    refine ⟨g.files, g.started, g.ret, g.helper, ?_, hv⟩
    show Dict.set s.environ _ f = _
    rw [g.environ]
    rfl
  | some d =>
    refine ⟨g.files, g.started, g.ret, g.helper, ?_, fun x hx => ?_⟩
    · show Dict.set (Dict.set s.environ _ f) _ d = _
      rw [g.environ]
      rfl
    · exact (get?_dictDel_ne _ (fun hh : x = _ => hx (by rw [hh]; decide))).trans (hv x hx)

theorem exportedEnv_other (env : Environ) (c : Str) (src : Option Str) {x : Str} (h1 : x ≠ py!"cmake_args_file") (h2 : x ≠ py!"path_to_src") :
    Dict.get? (exportedEnv env c src) x = Dict.get? env x := by
  cases src with
  | none => exact Dict.get?_set_ne _ _ h1
  | some d => exact (Dict.get?_set_ne _ _ h2).trans (Dict.get?_set_ne _ _ h1)

/-- The shell in which gen_config.py is run for the second time. -/
theorem gc_second {W : Machine} (hfit : FitGc W s) {args init ws : List Str} {src : Option Str} (hne : args ≠ []) (hh : ¬ Mentioned py!"--help" args)
    (hsp : Splits W s args init src) (hpat : ∀ a ∈ init, NoPattern a) (hpass : Passed init ws) {F : Dict Str Str}
    (hr : W.run (genCall W ws) s.environ s.files = (0, F)) {c : Str} (hc : CatGives F (userFile (s.get py!"USER") py!".bash_cmake_args_loc") c) :
    ∃ s1, GcPrepared s s1 c src [{ argv := genCall W ws, environ := s.environ, helper := s.helper }] F ∧
      genConfig W args s = (do
          let st ← start W (genCall W (ws ++ [py!"--save-load-env-args", userFile (s.get py!"USER") py!".load_env_args"]))
          if st ≠ 0 then cleanupGc
          else do
            let a ← cat (userFile (s.get py!"USER") py!".load_env_args")
            M.modify (Shell.assign py!"load_env_call_args" a)
            let as ← unquoted a
            let _ ← loadEnv W (if as = [] then args else as)
            cleanupGc) s1 := by
  obtain ⟨s1, s2, hu, g, hsrc, e⟩ := gc_first hfit hne hh hsp hpat hpass hr
  have hu' : Solid (s1.get py!"USER") := by rw [hu]; exact hfit.user
  rw [e, if_neg (by decide), M.bind_ok (cat_ok (tmpFile_solid hu' (n := py!".bash_cmake_args_loc") (by unfold Solid; decide)) (by simp [tmpFile]) s2)]
  have hcc : Bash.dropLineEnds ((Dict.get? s2.files (tmpFile s1 py!".bash_cmake_args_loc")).getD []) = c := by
    rw [(catGives_iff _ _ _).1 hc, g.files, ← hu]
    rfl
  rw [hcc]
  obtain ⟨s3, e3, h1, h2, h3, h4, h5, h8⟩ := exported_ok g hsrc c
  rw [M.bind_ok e3, M.bind_ok (modify_ok _ s3),
    M.bind_ok (unquoted_solid (tmpFile_solid hu' (n := py!".load_env_args") (by unfold Solid; decide)) (by simp [tmpFile]) _)]
  refine ⟨{ s3 with helper := true }, ⟨h5, h8, rfl, h2, h1, h3⟩, ?_⟩
  rw [M.bind_def, startPython_ok (genDir_solid hfit.dir) (by simp)]
  have ht : tmpFile s1 py!".load_env_args" = userFile (s.get py!"USER") py!".load_env_args" := by rw [← hu]; rfl
  rw [ht]
  rfl

theorem prepared_user {c : Str} {src : Option Str} {s2 : Shell} (g : GcPrepared s s2 c src ps F) : s2.get py!"USER" = s.get py!"USER" := by
  unfold Shell.get Shell.find
  rw [g.environ, exportedEnv_other _ _ _ (by decide) (by decide), g.vars _ (by decide)]

theorem prepared_start {c : Str} {src : Option Str} {s2 : Shell} (g : GcPrepared s s2 c src ps F) {W : Machine} {argv : List Str} {st : Nat}
    {F' : Dict Str Str} (hr : W.run argv (exportedEnv s.environ c src) F = (st, F')) :
    ∃ s3, start W argv s2 = (.ok st, s3) ∧
      GcPrepared s s3 c src (ps ++ [{ argv := argv, environ := exportedEnv s.environ c src, helper := true }]) F' := by
  refine ⟨{ s2 with files := F', started := s2.started ++ [{ argv := argv, environ := s2.environ, helper := s2.helper }] }, ?_, ?_⟩
  · show (Out.ok (W.run argv s2.environ s2.files).1, ({ s2 with files := (W.run argv s2.environ s2.files).2, started := _ } : Shell)) = _
    rw [g.files, g.environ, hr]
  · exact ⟨g.environ, g.vars, g.helper, by show s2.started ++ _ = _; rw [g.started, g.helper, g.environ, List.append_assoc], rfl, g.ret⟩

theorem prepared_assign {c : Str} {src : Option Str} {s2 : Shell} (g : GcPrepared s s2 c src ps F) {x : Str} (hx : x ∈ genConfigNames)
    (hn : Dict.get? s2.environ x = none) (v : Str) : GcPrepared s (Shell.assign x v s2) c src ps F := by
  rw [assign_eq hn]
  exact ⟨g.environ, fun y hy => (Dict.get?_set_ne _ _ (fun hh : y = x => hy (hh ▸ hx))).trans (g.vars y hy), g.helper, g.started, g.files, g.ret⟩

theorem prepared_clean {c : Str} {src : Option Str} {s2 : Shell} (g : GcPrepared s s2 c src ps F) (hu : Solid (s.get py!"USER")) :
    ∃ s', cleanupGc s2 = (.ok 0, s') ∧ GcLeaves s s' (s.get py!"USER") s.environ ps F := by
  obtain ⟨s', e, h1, h2, h3, h4, h5, h6⟩ := cleanupGc_ok (s := s2) (by rw [prepared_user g]; exact hu)
  refine ⟨s', e, ⟨fun x hx => ?_, h2, fun x hx _ => (h3 x hx).trans (g.vars x hx), h4, h5.trans g.started, ?_⟩⟩
  · rw [h1 x hx, g.environ, exportedEnv_other _ _ _ (fun hh => hx (by rw [hh]; decide)) (fun hh => hx (by rw [hh]; decide))]
  · rw [prepared_user g, g.files] at h6; exact h6

end
end CPE.KW.Script
