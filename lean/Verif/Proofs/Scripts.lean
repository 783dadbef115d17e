import Verif.Spec.Scripts
import Verif.Proofs.GenOutput
import Verif.Proofs.ApplyEnv
import Verif.Proofs.BashScript
/-
Steps of the scripts load-env.sh and gen-config.sh.
-/
namespace CPE.KW.Script
open CPE CPE.Spec CPE.SetEnv CPE.KW CPE.KW.Spec

/-! ### Words -/

theorem isBlank_iff (c : Char) : isBlank c = true ↔ c ∈ [' ', '\t', '\n'] := by
  simp [isBlank, or_assoc]

theorem isPattern_iff (c : Char) : isPattern c = true ↔ c ∈ ['*', '?', '['] := by
  simp [isPattern, or_assoc]

theorem splitBlanks_words (s : Str) : ∀ cur : Str, (∀ c ∈ cur, c ∉ [' ', '\t', '\n']) → ShellWords (cur ++ s) (splitBlanks cur s) := by
  induction s with
  | nil =>
    intro cur h
    unfold splitBlanks
    by_cases hc : cur = []
    · rw [if_pos hc, hc]; exact .nil
    · rw [if_neg hc]; exact .word hc h (by simp) .nil
  | cons c s ih =>
    intro cur h
    unfold splitBlanks
    by_cases hb : isBlank c = true
    · rw [if_pos hb]
      have hb := (isBlank_iff c).1 hb
      by_cases hc : cur = []
      · rw [if_pos hc, hc]; exact .space hb (ih [] (by simp))
      · rw [if_neg hc]; exact .word hc h (by simpa using hb) (.space hb (ih [] (by simp)))
    · rw [if_neg hb]
      have := ih (cur ++ [c]) (by
        intro d hd
        rcases List.mem_append.1 hd with hd | hd
        · exact h d hd
        · rw [List.mem_singleton.1 hd]; exact fun hm => hb ((isBlank_iff c).2 hm))
      simpa using this

theorem words_iff (s : Str) (ws : List Str) : ShellWords s ws ↔ splitBlanks [] s = ws :=
  ⟨fun h => shell_det (splitBlanks_words s [] (by simp)) h, fun h => h ▸ splitBlanks_words s [] (by simp)⟩

theorem solid_noPattern {v : Str} (h : Solid v) : NoPattern v := fun c hc hm => h c hc (by simp at hm; rcases hm with rfl | rfl | rfl <;> simp)

theorem noPattern_any {v : Str} (h : NoPattern v) : v.any isPattern = false := by
  rw [List.any_eq_false]
  exact fun c hc hp => h c hc ((isPattern_iff c).1 hp)

theorem solid_words {v : Str} (h : Solid v) (hn : v ≠ []) : splitBlanks [] v = [v] := by
  refine (words_iff v [v]).1 ?_
  have := ShellWords.word hn (fun c hc hm => h c hc (by simp at hm; rcases hm with rfl | rfl | rfl <;> simp)) (by simp) ShellWords.nil
  simpa using this

theorem solid_append {u v : Str} (hu : Solid u) (hv : Solid v) : Solid (u ++ v) := by
  intro c hc
  rcases List.mem_append.1 hc with hc | hc
  · exact hu c hc
  · exact hv c hc

theorem passed_iff (args ws : List Str) : Passed args ws ↔ args.flatMap (splitBlanks []) = ws := by
  constructor
  · intro h
    induction h with
    | nil => rfl
    | cons h _ ih => rw [List.flatMap_cons, (words_iff _ _).1 h, ih]
  · rintro rfl
    induction args with
    | nil => exact .nil
    | cons a as ih => exact .cons ((words_iff _ _).2 rfl) ih

/-! ### Steps -/

theorem unquoted_ok {v : Str} (h : NoPattern v) (s : Shell) : unquoted v s = (.ok (splitBlanks [] v), s) := by
  unfold unquoted
  rw [noPattern_any h]
  rfl

theorem unquoted_solid {v : Str} (h : Solid v) (hn : v ≠ []) (s : Shell) : unquoted v s = (.ok [v], s) := by
  rw [unquoted_ok (solid_noPattern h), solid_words h hn]

theorem unquotedAll_ok {args : List Str} (h : ∀ a ∈ args, NoPattern a) (s : Shell) :
    unquotedAll args s = (.ok (args.flatMap (splitBlanks [])), s) := by
  unfold unquotedAll
  have : args.any (fun a => a.any isPattern) = false := by
    rw [List.any_eq_false]
    intro a ha
    rw [noPattern_any (h a ha)]
    simp
  rw [this]
  rfl

theorem oneWord_ok {v : Str} (h : Solid v) (hn : v ≠ []) (s : Shell) : oneWord v s = (.ok v, s) := by
  unfold oneWord
  rw [M.bind_ok (unquoted_solid h hn s)]
  rfl

theorem unaryTest_ok {p : Shell → Str → Bool} {v : Str} (h : Solid v) (hn : v ≠ []) (s : Shell) :
    unaryTest p v s = (.ok (p s v), s) := by
  unfold unaryTest
  rw [M.read_bind, M.bind_ok (unquoted_solid h hn s)]
  rfl

theorem notEmptyTest_nil (s : Shell) : notEmptyTest [] s = (.ok false, s) := rfl

theorem notEmptyTest_ok {v : Str} (h : Solid v) (hn : v ≠ []) (s : Shell) : notEmptyTest v s = (.ok true, s) := by
  unfold notEmptyTest
  rw [M.bind_ok (unquoted_solid h hn s)]
  rfl

theorem remove_ok {w : Str} (h : w.head? ≠ some '-') (s : Shell) :
    remove [w] s = (.ok (), { s with files := dictDel s.files w }) := by
  unfold remove
  have : [w].any (fun w => w.head? == some '-') = false := by simpa using h
  rw [this]
  rfl

theorem removeFile_ok {v : Str} (h : Solid v) (hn : v ≠ []) (hd : v.head? ≠ some '-') (s : Shell) :
    removeFile v s = (.ok (), { s with files := dictDel s.files v }) := by
  unfold removeFile
  rw [M.bind_ok (unaryTest_ok h hn s)]
  by_cases hf : isFile s v = true
  · rw [if_pos hf, M.bind_ok (unquoted_solid h hn s), remove_ok hd]
  · rw [if_neg hf]
    have : Dict.get? s.files v = none := by
      unfold isFile at hf
      cases hg : Dict.get? s.files v with
      | none => rfl
      | some x => rw [hg] at hf; exact absurd rfl hf
    rw [Bash.dictDel_none this]
    rfl

theorem cat_ok {v : Str} (h : Solid v) (hn : v ≠ []) (s : Shell) :
    cat v s = (.ok (Bash.dropLineEnds ((Dict.get? s.files v).getD [])), s) := by
  unfold cat
  rw [M.bind_ok (oneWord_ok h hn s), M.read_bind]
  rfl

theorem dropTwo_ok {v : Str} (h : 2 ≤ v.length) (s : Shell) : dropTwo v s = (.ok (v.take (v.length - 2)), s) := by
  unfold dropTwo
  rw [if_neg (by omega)]
  rfl

theorem rcOf_iff {f p : Str} (h : 2 ≤ f.length) : RcOf f p ↔ p = f.take (f.length - 2) ++ py!"rc" := by
  constructor
  · rintro ⟨stem, a, b, rfl, rfl⟩
    simp
  · rintro rfl
    refine ⟨f.take (f.length - 2), f[f.length - 2], f[f.length - 1], ?_, rfl⟩
    apply List.ext_getElem
    · simp; omega
    · intro i h1 h2
      simp only [List.getElem_append, List.length_take]
      split
      · simp
      · rename_i hi
        have : i = f.length - 2 ∨ i = f.length - 1 := by omega
        rcases this with rfl | rfl
        · simp [show min (f.length - 2) f.length = f.length - 2 by omega]
        · simp only [show min (f.length - 2) f.length = f.length - 2 by omega,
            show f.length - 1 - (f.length - 2) = 1 by omega]
          rfl

/-! ### load-env.sh -/

/-- What `cleanup` leaves, if it removes the files `gone`. -/
def swept (s : Shell) (gone : List Str) : Shell :=
  { Shell.unset [py!"python_too_old", py!"script_dir", py!"ci_mode", py!"env_file"]
      { s with files := gone.foldl dictDel s.files } with ret := none }

/-- The generated files. -/
def genFiles : Option Str → List Str
  | none => [py!"rc"]
  | some f => [f, f.take (f.length - 2) ++ py!"rc"]

/-- The files that `cleanup` removes. -/
def goneFiles (u : Str) (e : Option Str) : List Str :=
  userFile u py!".load_matching_env_loc" :: userFile u py!".ci_mode" :: genFiles e

theorem solid_userFile {u : Str} (h : Solid u) {n : Str} (hn : Solid n) : Solid (userFile u n) := by
  unfold userFile
  refine solid_append (solid_append (solid_append ?_ h) ?_) hn <;> (unfold Solid; decide)

theorem removeUser {s : Shell} (h : Solid (s.get py!"USER")) {n : Str} (hn : Solid n) (s' : Shell) :
    removeFile (tmpFile s n) s' = (.ok (), { s' with files := dictDel s'.files (userFile (s.get py!"USER") n) }) :=
  removeFile_ok (solid_userFile h hn) (by simp [userFile]) (by simp [userFile]) s'

theorem removeGenerated_ok {e : Option Str} (hf : FitFile e) (s : Shell) :
    removeGenerated e s = (.ok (), { s with files := (genFiles e).foldl dictDel s.files }) := by
  cases e with
  | none => rfl
  | some f =>
    obtain ⟨h1, h2, h3⟩ := hf f rfl
    have hne : f ≠ [] := by rintro rfl; simp at h2
    have hg : removeGiven f s = (.ok (), { s with files := dictDel s.files f }) := by
      unfold removeGiven
      rw [M.bind_ok (notEmptyTest_ok h1 hne _), if_pos rfl, M.bind_ok (unquoted_solid h1 hne _), remove_ok h3]
    have hp : Solid (f.take (f.length - 2) ++ py!"rc") :=
      solid_append (fun c hc => h1 c (List.mem_of_mem_take hc)) (by unfold Solid; decide)
    unfold removeGenerated
    dsimp only
    rw [M.bind_ok hg, M.bind_ok (dropTwo_ok h2 _), M.bind_ok (unquoted_solid hp (by simp) _), remove_ok]
    · rfl
    intro hh
    cases hx : f.take (f.length - 2) with
    | nil => rw [hx] at hh; cases hh
    | cons c cs =>
      rw [hx] at hh
      have : f.head? = some c := by
        have := List.take_append_drop (f.length - 2) f
        rw [hx] at this
        rw [← this]; rfl
      exact h3 (this.trans hh)

theorem cleanup_ok {s : Shell} (hu : Solid (s.get py!"USER")) (hf : FitFile (s.find py!"env_file")) :
    cleanup s = (.ok (s.ret.getD 0), swept s (goneFiles (s.get py!"USER") (s.find py!"env_file"))) := by
  unfold cleanup
  rw [M.read_bind]
  rw [M.bind_ok (removeUser (n := py!".load_matching_env_loc") hu (by unfold Solid; decide) s),
    M.bind_ok (removeUser (n := py!".ci_mode") hu (by unfold Solid; decide) _),
    M.bind_ok (removeGenerated_ok hf _)]
  rfl

theorem removed_foldl (gone : List Str) : ∀ files : Dict Str Str, Removed files (gone.foldl dictDel files) (· ∈ gone) := by
  induction gone with
  | nil => exact fun files p => ⟨fun h => absurd h (by simp), fun _ => rfl⟩
  | cons g gs ih =>
    intro files p
    obtain ⟨h1, h2⟩ := ih (dictDel files g) p
    refine ⟨fun h => ?_, fun h => ?_⟩
    · by_cases hp : p ∈ gs
      · exact h1 hp
      · rcases List.mem_cons.1 h with rfl | h
        · exact (h2 hp).trans (get?_dictDel_self _ _)
        · exact absurd h hp
    · have h : ¬ (p = g ∨ p ∈ gs) := fun hh => h (List.mem_cons.2 hh)
      rw [not_or] at h
      exact (h2 h.2).trans (get?_dictDel_ne _ h.1)

theorem gone_iff {u : Str} {e : Option Str} (hf : FitFile e) (p : Str) : p ∈ goneFiles u e ↔ Gone u e p := by
  unfold Gone
  cases e with
  | none => simp [goneFiles, genFiles]
  | some f =>
    simp only [goneFiles, genFiles, List.mem_cons, List.not_mem_nil, or_false]
    simp [rcOf_iff (hf f rfl).2.1]

/-- Where load-env.sh has got to: from the shell `s0` to the shell `s`, with the exported variables `env`, the started programs `ps`,
the files `F`, the value `e` of `env_file`, and the status `r`. -/
structure At (s0 s : Shell) (env : Environ) (ps : List Started) (F : Dict Str Str) (e : Option Str) (r : Option Nat) : Prop where
  environ : s.environ = env
  helper : s.helper = s0.helper
  started : s.started = s0.started ++ ps
  files : s.files = F
  vars : ∀ x, x ∉ loadEnvNames → Dict.get? s.vars x = Dict.get? s0.vars x
  file : s.find py!"env_file" = e
  ret : s.ret = r

theorem At.init (s : Shell) : At s s s.environ [] s.files (s.find py!"env_file") s.ret :=
  ⟨rfl, rfl, (List.append_nil _).symm, rfl, fun _ _ => rfl, rfl, rfl⟩

section
variable {s0 s : Shell} {env : Environ} {ps : List Started} {F : Dict Str Str} {e : Option Str} {r : Option Nat}

theorem assign_eq {x v : Str} (h : Dict.get? s.environ x = none) : Shell.assign x v s = { s with vars := Dict.set s.vars x v } := by
  unfold Shell.assign
  rw [h]
  rfl

theorem find_vars {x : Str} (h : Dict.get? s.environ x = none) : s.find x = Dict.get? s.vars x := by
  unfold Shell.find
  rw [h]

theorem At.assign (h : At s0 s env ps F e r) (hn : Hidden env) {x : Str} (hx : x ∈ loadEnvNames)
    (hne : x ≠ py!"env_file") (v : Str) : At s0 (Shell.assign x v s) env ps F e r ∧ (Shell.assign x v s).find x = some v := by
  have hx' : Dict.get? s.environ x = none := by rw [h.environ]; exact hn x hx
  have hf' : Dict.get? s.environ py!"env_file" = none := by rw [h.environ]; exact hn _ (by decide)
  rw [assign_eq hx']
  refine ⟨⟨h.environ, h.helper, h.started, h.files, fun y hy => ?_, ?_, h.ret⟩, ?_⟩
  · exact (Dict.get?_set_ne _ _ (fun hh : y = x => hy (hh ▸ hx))).trans (h.vars y hy)
  · rw [← h.file, find_vars hf']
    exact (find_vars (s := { s with vars := Dict.set s.vars x v }) hf').trans (Dict.get?_set_ne _ _ (Ne.symm hne))
  · exact (find_vars (s := { s with vars := Dict.set s.vars x v }) hx').trans (Dict.get?_set_self ..)

theorem At.assignFile (h : At s0 s env ps F e r) (hn : Hidden env) (v : Str) :
    At s0 (Shell.assign py!"env_file" v s) env ps F (some v) r := by
  have hf' : Dict.get? s.environ py!"env_file" = none := by rw [h.environ]; exact hn _ (by decide)
  rw [assign_eq hf']
  refine ⟨h.environ, h.helper, h.started, h.files, fun y hy => ?_, ?_, h.ret⟩
  · exact (Dict.get?_set_ne _ _ (fun hh : y = py!"env_file" => hy (by rw [hh]; decide))).trans (h.vars y hy)
  · exact (find_vars (s := { s with vars := Dict.set s.vars py!"env_file" v }) hf').trans (Dict.get?_set_self ..)

/-- A variable that is not one of the script's. -/
theorem At.get (h : At s0 s env ps F e r) {x : Str} (hx : x ∉ loadEnvNames) : s.get x = ({ s0 with environ := env } : Shell).get x := by
  unfold Shell.get Shell.find
  rw [h.environ, h.vars x hx]

theorem At.cleanup (h : At s0 s env ps F e r) (hn : Hidden env) {u : Str}
    (hu : ({ s0 with environ := env } : Shell).get py!"USER" = u) (hs : Solid u) (hf : FitFile e) :
    ∃ s', cleanup s = (.ok (r.getD 0), s') ∧ Leaves s0 s' env ps ∧ Tidy s' ∧ Removed F s'.files (Gone u e) := by
  have hu' : s.get py!"USER" = u := (h.get (by decide)).trans hu
  have hc := cleanup_ok (s := s) (by rw [hu']; exact hs) (by rw [h.file]; exact hf)
  rw [h.file, hu', h.ret] at hc
  have hel : ∀ {x : Str} {d : Dict Str Str}, x ∈ [py!"python_too_old", py!"script_dir", py!"ci_mode", py!"env_file"] →
      Dict.get? (dictDel (dictDel (dictDel (dictDel d py!"python_too_old") py!"script_dir") py!"ci_mode") py!"env_file") x = none := by
    intro x d hx
    simp only [List.mem_cons, List.not_mem_nil, or_false] at hx
    rcases hx with rfl | rfl | rfl | rfl
    · rw [get?_dictDel_ne _ (by decide), get?_dictDel_ne _ (by decide), get?_dictDel_ne _ (by decide), get?_dictDel_self]
    · rw [get?_dictDel_ne _ (by decide), get?_dictDel_ne _ (by decide), get?_dictDel_self]
    · rw [get?_dictDel_ne _ (by decide), get?_dictDel_self]
    · rw [get?_dictDel_self]
  refine ⟨_, hc, ⟨?_, h.started, h.helper, fun x hx => ?_⟩, ⟨rfl, fun x hx => ?_⟩, ?_⟩
  · show dictDel (dictDel (dictDel (dictDel s.environ _) _) _) _ = env
    rw [h.environ, Bash.dictDel_none (hn _ (by decide)), Bash.dictDel_none (hn _ (by decide)), Bash.dictDel_none (hn _ (by decide)),
      Bash.dictDel_none (hn _ (by decide))]
  · show Dict.get? (dictDel (dictDel (dictDel (dictDel s.vars _) _) _) _) x = _
    have hx' : ∀ y ∈ loadEnvNames, x ≠ y := fun y hy hh => hx (hh ▸ hy)
    rw [get?_dictDel_ne _ (hx' _ (by decide)), get?_dictDel_ne _ (hx' _ (by decide)), get?_dictDel_ne _ (hx' _ (by decide)),
      get?_dictDel_ne _ (hx' _ (by decide)), h.vars x hx]
  · have h1 : Dict.get? (swept s (goneFiles u e)).environ x = none := hel (d := s.environ) hx
    rw [find_vars h1]
    exact hel (d := s.vars) hx
  · show Removed F ((goneFiles u e).foldl dictDel s.files) _
    rw [h.files]
    intro p
    obtain ⟨h1, h2⟩ := removed_foldl (goneFiles u e) F p
    exact ⟨fun hg => h1 ((gone_iff hf p).2 hg), fun hg => h2 (fun hm => hg ((gone_iff hf p).1 hm))⟩

theorem modify_ok {W : Type} (f : W → W) (w : W) : M.modify f w = (.ok (), f w) := rfl

theorem At.cleanupAnd (h : At s0 s env ps F e r) (hn : Hidden env) {u : Str}
    (hu : ({ s0 with environ := env } : Shell).get py!"USER" = u) (hs : Solid u) (hf : FitFile e) (n : Nat) :
    ∃ s', cleanupAnd n s = (.ok n, s') ∧ Leaves s0 s' env ps ∧ Tidy s' ∧ Removed F s'.files (Gone u e) := by
  obtain ⟨s', h1, h2⟩ := h.cleanup hn hu hs hf
  refine ⟨s', ?_, h2⟩
  unfold Script.cleanupAnd
  rw [M.bind_ok h1]
  rfl

theorem At.start (h : At s0 s env ps F e r) {W : Machine} {argv : List Str} {st : Nat} {F' : Dict Str Str}
    (hr : W.run argv env F = (st, F')) : ∃ s', start W argv s = (.ok st, s') ∧
      At s0 s' env (ps ++ [{ argv := argv, environ := env, helper := s0.helper }]) F' e r ∧ ∀ x, s'.find x = s.find x := by
  refine ⟨{ s with files := F', started := s.started ++ [{ argv := argv, environ := s.environ, helper := s.helper }] }, ?_, ?_, ?_⟩
  · show (Out.ok (W.run argv s.environ s.files).1, ({ s with files := (W.run argv s.environ s.files).2, started := _ } : Shell)) = _
    rw [h.environ, h.files, hr]
  · exact ⟨h.environ, h.helper, by show s.started ++ _ = _; rw [h.started, h.helper, h.environ, List.append_assoc], rfl, h.vars, h.file, h.ret⟩
  · exact fun x => rfl

theorem get_find {x v : Str} (h : s.find x = some v) : s.get x = v := by
  unfold Shell.get
  rw [h]
  rfl

theorem find_env {s s' : Shell} (h1 : s'.environ = s.environ) (h2 : s'.vars = s.vars) (x : Str) : s'.find x = s.find x := by
  unfold Shell.find
  rw [h1, h2]

theorem startPython_ok {W : Machine} {p : Str} (hp : Solid p) (hne : p ≠ []) (ws : List Str) :
    startPython W p ws s = start W (py!"python3" :: py!"-E" :: py!"-s" :: p :: ws) s := by
  unfold startPython
  rw [M.bind_ok (unquoted_solid hp hne s)]
  rfl

/-- How far load-env.sh gets before the Python program. -/
theorem body_of_fit {W : Machine} (hfit : Fit W s) (args : List Str) : loadEnv W args s = loadEnvBody W args s := by
  unfold loadEnv
  rw [if_neg (by rw [hfit.sourced]; decide), M.read_bind, hfit.unloaded, M.bind_ok (notEmptyTest_nil s), if_neg (by decide)]

theorem Fit.user' {W : Machine} (hfit : Fit W s) : Solid (({ s with environ := s.environ } : Shell).get py!"USER") := hfit.user

theorem old_python {W : Machine} (hfit : Fit W s) (hf : FitFile (s.find py!"env_file")) (args : List Str)
    (hp : W.python s.environ = none ∨ W.python s.environ = some true) :
    ∃ s', loadEnv W args s = (.ok 1, s') ∧ Leaves s s' s.environ [] ∧ Tidy s' ∧
      Removed s.files s'.files (Gone (s.get py!"USER") (s.find py!"env_file")) := by
  rw [body_of_fit hfit]
  unfold loadEnvBody
  rw [M.read_bind]
  rcases hp with hp | hp
  · rw [hp]
    exact (At.init s).cleanupAnd hfit.unexported rfl hfit.user hf 1
  · rw [hp]
    dsimp only
    rw [M.bind_ok (modify_ok _ s), if_pos rfl]
    obtain ⟨h1, _⟩ := (At.init s).assign hfit.unexported (x := py!"python_too_old") (by decide) (by decide) (if true = true then py!"True" else py!"False")
    exact h1.cleanupAnd hfit.unexported rfl hfit.user hf 1

theorem solid_dir {W : Machine} (h : Solid W.loadDir) : Solid (W.loadDir ++ py!"/load_env.py") :=
  solid_append h (by unfold Solid; decide)

theorem no_arguments {W : Machine} (hfit : Fit W s) (hus : Usable W s) (hf : FitFile (s.find py!"env_file")) {st : Nat} {F : Dict Str Str}
    (hr : W.run (helpCall W) s.environ s.files = (st, F)) :
    ∃ s', loadEnv W [] s = (.ok 1, s') ∧
      Leaves s s' s.environ [{ argv := helpCall W, environ := s.environ, helper := s.helper }] ∧ Tidy s' ∧
      Removed F s'.files (Gone (s.get py!"USER") (s.find py!"env_file")) := by
  rw [body_of_fit hfit]
  unfold loadEnvBody
  rw [M.read_bind, hus.python]
  dsimp only
  rw [M.bind_ok (modify_ok _ s), if_neg (by decide), M.bind_ok (modify_ok _ _), if_pos rfl, M.read_bind]
  obtain ⟨h1, _⟩ := (At.init s).assign hfit.unexported (x := py!"python_too_old") (by decide) (by decide) (if false = true then py!"True" else py!"False")
  obtain ⟨h2, h3⟩ := h1.assign hfit.unexported (x := py!"script_dir") (by decide) (by decide) W.loadDir
  rw [get_find h3]
  obtain ⟨s', e1, h4, _⟩ := h2.start hr
  generalize Shell.assign py!"script_dir" W.loadDir _ = t at e1
  have e2 : startPython W (W.loadDir ++ py!"/load_env.py") [py!"--help"] t = (.ok st, s') := by
    rw [startPython_ok (solid_dir hus.dir) (by simp)]
    exact e1
  rw [M.bind_ok e2]
  exact h4.cleanupAnd hfit.unexported rfl hfit.user hf 1

theorem reach {W : Machine} (hfit : Fit W s) (hus : Usable W s) {args ws : List Str} (hne : args ≠ []) (hpat : ∀ a ∈ args, NoPattern a)
    (hpass : Passed args ws) {st : Nat} {F : Dict Str Str} (hr : W.run (pythonCall W ws) s.environ s.files = (st, F)) :
    ∃ s1, At s s1 s.environ [{ argv := pythonCall W ws, environ := s.environ, helper := s.helper }] F (s.find py!"env_file") (some st) ∧
      s1.find py!"load_matching_env_loc" = some (location W) ∧
      loadEnv W args s = (if st ≠ 0 then cleanup else do
        M.modify (Shell.assign py!"ci_mode" (if isSubstr py!"--ci-mode" (joinStr py!" " args) = true then py!"1" else py!"0"))
        enter W (isSubstr py!"--ci-mode" (joinStr py!" " args))) s1 := by
  rw [body_of_fit hfit]
  unfold loadEnvBody
  rw [M.read_bind, hus.python]
  dsimp only
  rw [M.bind_ok (modify_ok _ s), if_neg (by decide), M.bind_ok (modify_ok _ _), if_neg hne]
  obtain ⟨h1, _⟩ := (At.init s).assign hfit.unexported (x := py!"python_too_old") (by decide) (by decide) (if false = true then py!"True" else py!"False")
  obtain ⟨h2, h3⟩ := h1.assign hfit.unexported (x := py!"script_dir") (by decide) (by decide) W.loadDir
  generalize Shell.assign py!"script_dir" W.loadDir _ = t at h2 h3
  unfold callLoadEnv
  dsimp only
  rw [M.bind_ok (modify_ok _ _), M.read_bind]
  obtain ⟨h4, h5⟩ := h2.assign hfit.unexported (x := py!"load_matching_env_loc") (by decide) (by decide) (py!".load_matching_env_loc." ++ W.random)
  have h6 : (Shell.assign py!"load_matching_env_loc" (py!".load_matching_env_loc." ++ W.random) t).get py!"script_dir" = W.loadDir := by
    have : Dict.get? t.environ py!"load_matching_env_loc" = none := by rw [h2.environ]; exact hfit.unexported _ (by decide)
    rw [assign_eq this]
    have h' : Dict.get? t.environ py!"script_dir" = none := by rw [h2.environ]; exact hfit.unexported _ (by decide)
    refine get_find ((find_vars (s := { t with vars := Dict.set t.vars py!"load_matching_env_loc" (py!".load_matching_env_loc." ++ W.random) }) h').trans ?_)
    refine (Dict.get?_set_ne _ _ (by decide)).trans ?_
    rw [← find_vars h']
    exact h3
  generalize Shell.assign py!"load_matching_env_loc" _ t = t2 at h4 h5 h6
  have hl : Solid (py!".load_matching_env_loc." ++ W.random) := solid_append (by unfold Solid; decide) hus.random
  rw [M.bind_ok (unquotedAll_ok hpat t2), M.bind_ok (unquoted_solid hl (by simp) t2), (passed_iff _ _).1 hpass, h6]
  obtain ⟨s', e1, h7, h8⟩ := h4.start hr
  have e2 : startPython W (W.loadDir ++ py!"/load_env.py") (py!"--load-matching-env-location" :: ([py!".load_matching_env_loc." ++ W.random] ++ ws)) t2 =
      (.ok st, s') := by
    rw [startPython_ok (solid_dir hus.dir) (by simp)]
    exact e1
  rw [M.bind_ok e2, M.bind_ok (modify_ok _ s')]
  refine ⟨{ s' with ret := some st }, ⟨h7.environ, h7.helper, h7.started, h7.files, h7.vars, h7.file, rfl⟩, ?_, rfl⟩
  exact (h8 _).trans h5

/-! ### Entering the environment -/

theorem plain_solid {f : Str} (h : PlainName f) : Solid f := by
  intro c hc
  have hb := plain_bare h c hc
  intro hm
  simp only [List.mem_cons, List.not_mem_nil, or_false] at hm
  rcases hm with rfl | rfl | rfl | rfl | rfl | rfl <;> exact absurd hb (by decide)

theorem dropLineEnds_append {f nl : Str} (hf : Solid f) (hnl : ∀ c ∈ nl, c = '\n') : Bash.dropLineEnds (f ++ nl) = f := by
  unfold Bash.dropLineEnds
  rw [List.reverse_append]
  have : ∀ l : Str, (∀ c ∈ l, c = '\n') → ∀ m : Str, (l ++ m).dropWhile (· == '\n') = m.dropWhile (· == '\n') := by
    intro l
    induction l with
    | nil => exact fun _ m => rfl
    | cons c l ih =>
      intro h m
      rw [List.cons_append, List.dropWhile_cons_of_pos (by simp [h c (by simp)])]
      exact ih (fun d hd => h d (List.mem_cons_of_mem _ hd)) m
  rw [this _ (fun c hc => hnl c (List.mem_reverse.1 hc))]
  cases hr : f.reverse with
  | nil => rw [List.reverse_eq_nil_iff.1 hr]; rfl
  | cons c cs =>
    have hc : c ∈ f := List.mem_reverse.1 (hr ▸ List.mem_cons_self ..)
    rw [List.dropWhile_cons_of_neg]
    · rw [← hr, List.reverse_reverse]
    · intro hh
      have : c = '\n' := by simpa using hh
      exact hf c hc (by rw [this]; simp)

theorem lineEnds_split (t : Str) : ∃ nl, (∀ c ∈ nl, c = '\n') ∧ t = Bash.dropLineEnds t ++ nl := by
  refine ⟨(t.reverse.takeWhile (· == '\n')).reverse, fun c hc => ?_, ?_⟩
  · simpa using List.all_takeWhile (p := (· == '\n')) (l := t.reverse) |> fun h => List.all_eq_true.1 h c (List.mem_reverse.1 hc)
  · unfold Bash.dropLineEnds
    rw [← List.reverse_append, List.takeWhile_append_dropWhile, List.reverse_reverse]

theorem shell_append_spaces {t : Str} {ws : List Str} (h : ShellWords t ws) {nl : Str} (hnl : ∀ c ∈ nl, c ∈ [' ', '\t', '\n']) :
    ShellWords (t ++ nl) ws := by
  induction h with
  | nil =>
    have := shell_spaces hnl ShellWords.nil
    simpa using this
  | space hc _ ih => exact .space hc ih
  | @word w s ws h1 h2 h3 h4 ih =>
    rw [List.append_assoc]
    refine .word h1 h2 ?_ ih
    cases s with
    | nil =>
      intro c hc
      cases nl with
      | nil => simp at hc
      | cons d nl => simp at hc; exact hc ▸ hnl d (by simp)
    | cons d s => simpa using h3

theorem words_dropLineEnds {t : Str} {ws : List Str} (h : ShellWords t ws) : ShellWords (Bash.dropLineEnds t) ws := by
  obtain ⟨nl, h1, h2⟩ := lineEnds_split t
  have h3 := shell_append_spaces ((words_iff (Bash.dropLineEnds t) _).2 rfl) (nl := nl) (fun c hc => by rw [h1 c hc]; simp)
  rw [← h2] at h3
  rw [shell_det h h3]
  exact (words_iff _ _).2 rfl

theorem noPattern_dropLineEnds {t : Str} (h : NoPattern t) : NoPattern (Bash.dropLineEnds t) := by
  obtain ⟨nl, h1, h2⟩ := lineEnds_split t
  exact fun c hc => h c (by rw [h2]; exact List.mem_append_left _ hc)

theorem script_long {f : Str} (h : ∃ stem, f = stem ++ py!".sh") : 2 ≤ f.length := by
  obtain ⟨stem, rfl⟩ := h
  simp

theorem script_rc {f : Str} (h : ∃ stem, f = stem ++ py!".sh") : f.take (f.length - 2) ++ py!"rc" ≠ f := by
  obtain ⟨stem, rfl⟩ := h
  intro hh
  have := congrArg List.getLast? hh
  simp at this

theorem script_fit {f : Str} (h : ScriptPath f) : FitFile (some f) := by
  rintro g hg
  cases hg
  exact ⟨plain_solid h.1, script_long h.2.2, h.2.1⟩

theorem location_solid {W : Machine} (h : Solid W.random) : Solid (location W) := solid_append (by unfold Solid; decide) h

/-- `enter`, as far as it is the same for both modes. -/
theorem enter_none {W : Machine} (h : At s0 s env ps F e r) (hl : s.find py!"load_matching_env_loc" = some (location W)) (hr : Solid W.random)
    (hno : Dict.get? F (location W) = none) (ci : Bool) : enter W ci s = cleanup s := by
  unfold enter
  rw [M.read_bind, get_find hl, M.bind_ok (unaryTest_ok (location_solid hr) (by simp [location]) s)]
  rw [if_neg]
  unfold isFile
  rw [h.files, hno]
  decide

theorem enter_some {W : Machine} (h : At s0 s env ps F e r) (hn : Hidden env) (hl : s.find py!"load_matching_env_loc" = some (location W)) (hr : Solid W.random)
    {f : Str} (hp : Points F (location W) f) (ci : Bool) :
    ∃ s', At s0 s' env ps F (some f) r ∧ enter W ci s = (if (Dict.get? F f).isSome = true then
        (if ci = false then do
          writeLines (f.take (f.length - 2) ++ py!"rc") (rcStart f ++ rcInteractive)
          let _ ← start W [py!"/bin/bash", py!"--init-file", f.take (f.length - 2) ++ py!"rc", py!"-i"]
          cleanup
        else do
          writeLines (f.take (f.length - 2) ++ py!"rc") (rcStart f ++ [helperCommand])
          M.forEach (rcStart f ++ [helperCommand]) (rcLine W)
          cleanup)
      else cleanupAnd 1) s' := by
  obtain ⟨⟨p1, p3, hsh⟩, nl, p4, p5⟩ := hp
  have p2 := script_long hsh
  have hs := plain_solid p1
  have hne : f ≠ [] := by rintro rfl; simp at p2
  unfold enter
  rw [M.read_bind, get_find hl, M.bind_ok (unaryTest_ok (location_solid hr) (by simp [location]) s)]
  rw [if_pos (by unfold isFile; rw [h.files, p5]; rfl)]
  have hc := cat_ok (location_solid hr) (by simp [location]) s
  rw [h.files, p5, Option.getD_some, dropLineEnds_append hs p4] at hc
  rw [M.bind_ok hc, M.bind_ok (modify_ok _ s), M.bind_ok (dropTwo_ok p2 _), M.bind_ok (modify_ok _ _), M.bind_ok (modify_ok _ _),
    M.bind_ok (unaryTest_ok hs hne _)]
  have h1 := h.assignFile hn f
  obtain ⟨h2, _⟩ := h1.assign hn (x := py!"env_file_rc") (by decide) (by decide) (f.take (f.length - 2) ++ py!"rc")
  obtain ⟨h3, _⟩ := h2.assign hn (x := py!"run_gen_config_helper_cmd") (by decide) (by decide) helperCommand
  generalize Shell.assign py!"run_gen_config_helper_cmd" helperCommand _ = t at h3
  refine ⟨t, h3, ?_⟩
  have hi : isFile t f = (Dict.get? F f).isSome := by
    unfold isFile
    rw [h3.files]
  rw [hi]
  by_cases hm : (Dict.get? F f).isSome = true
  · rw [if_pos hm, if_pos hm]
    have hrc : Solid (f.take (f.length - 2) ++ py!"rc") :=
      solid_append (fun c hc => hs c (List.mem_of_mem_take hc)) (by unfold Solid; decide)
    rw [M.bind_ok (oneWord_ok hrc (by simp) t)]
  · rw [if_neg hm, if_neg hm]

/-! ### The generated file -/

theorem At.write (h : At s0 s env ps F e r) (file : Str) (ls : List Str) :
    ∃ s', writeLines file ls s = (.ok (), s') ∧ At s0 s' env ps (Dict.set F file (fileOf ls)) e r :=
  ⟨_, rfl, ⟨h.environ, h.helper, h.started, by show Dict.set s.files _ _ = _; rw [h.files]; rfl, h.vars, h.file, h.ret⟩⟩

theorem At.file_of_hidden (h : At s0 s env ps F e r) (hn : Hidden env) : Dict.get? s.vars py!"env_file" = e := by
  rw [← h.file, find_vars]
  rw [h.environ]
  exact hn _ (by decide)

theorem rcLine_source (W : Machine) (f : Str) (s : Shell) : rcLine W (py!"source " ++ f) s =
    if f.all Bash.bareChar = true then (match Dict.get? s.files f with
      | some t => loadText W t s
      | none => (.ok (), s)) else Bash.notModelled s := by
  have hp : List.isPrefixOf? py!"source " (py!"source " ++ f) = some f := rfl
  unfold rcLine
  rw [hp]
  dsimp only
  split
  · rw [M.read_bind]
    cases Dict.get? s.files f <;> rfl
  · rfl

theorem rcLine_helper (W : Machine) (s : Shell) : rcLine W helperCommand s = if s.helper = true then genConfigHelper W s else (.ok (), s) := by
  have h : rcLine W helperCommand = M.read >>= fun s => if s.helper = true then genConfigHelper W else pure () := rfl
  rw [h, M.read_bind]
  cases s.helper <;> rfl

theorem forEach_cons {X ι : Type} (f : ι → M X Unit) (a : ι) (l : List ι) (x : X) :
    M.forEach (a :: l) f x = (f a >>= fun _ => M.forEach l f) x := rfl

theorem forEach_skip {X ι : Type} {f : ι → M X Unit} {a : ι} (l : List ι) {x : X} (h : f a x = (.ok (), x)) :
    M.forEach (a :: l) f x = M.forEach l f x := by
  rw [forEach_cons, M.bind_ok h]

theorem forEach_single {X ι : Type} (f : ι → M X Unit) (a : ι) (x : X) : M.forEach [a] f x = f a x := by
  rw [forEach_cons, M.bind_def]
  rcases f a x with ⟨_ | _ | _, _⟩ <;> rfl

theorem rcLine_echo {W : Machine} {l : Str} (h1 : List.isPrefixOf? py!"source " l = none) (h2 : py!"echo".isPrefixOf l = true) (s : Shell) :
    rcLine W l s = (.ok (), s) := by
  unfold rcLine
  rw [h1]
  dsimp only
  rw [if_pos h2]
  rfl

theorem forEach_echo (W : Machine) {ls : List Str} (h : ∀ l ∈ ls, List.isPrefixOf? py!"source " l = none ∧ py!"echo".isPrefixOf l = true)
    (l2 : List Str) (s : Shell) : M.forEach (ls ++ l2) (rcLine W) s = M.forEach l2 (rcLine W) s := by
  induction ls with
  | nil => rfl
  | cons l ls ih =>
    rw [List.cons_append, forEach_skip _ (rcLine_echo (h l (by simp)).1 (h l (by simp)).2 s)]
    exact ih fun m hm => h m (List.mem_cons_of_mem _ hm)

/-- The lines of a file after the first. -/
def echoLines : List Str := (rcStart []).drop 1

theorem echoLines_echo : ∀ l ∈ echoLines, List.isPrefixOf? py!"source " l = none ∧ py!"echo".isPrefixOf l = true := by decide

theorem plain_all {f : Str} (h : PlainName f) : f.all Bash.bareChar = true := List.all_eq_true.2 (plain_bare h)

/-- The environment is loaded. -/
theorem At.load (h : At s0 s env ps F e r) (hn : Hidden env) {W : Machine} {f t : Str} (hf : PlainName f) (ht : Dict.get? F f = some t)
    {o : Out Unit} {env' : Environ} (hl : W.load t env = (o, env')) :
    ∃ s', rcLine W (py!"source " ++ f) s = (o, s') ∧ s'.environ = env' ∧ s'.helper = s0.helper ∧ s'.started = s0.started ++ ps ∧ s'.files = F ∧
      (∀ x, x ∉ loadEnvNames → Dict.get? s'.vars x = Dict.get? s0.vars x) ∧ (Hidden env' → At s0 s' env' ps F e r) := by
  refine ⟨{ s with environ := env' }, ?_, rfl, h.helper, h.started, h.files, h.vars, fun hn' => ?_⟩
  · rw [rcLine_source, if_pos (plain_all hf), show Dict.get? s.files f = some t by rw [h.files]; exact ht]
    show ((W.load t s.environ).1, ({ s with environ := (W.load t s.environ).2 } : Shell)) = _
    rw [h.environ, hl]
  · refine ⟨rfl, h.helper, h.started, h.files, h.vars, ?_, h.ret⟩
    rw [find_vars (s := { s with environ := env' }) (hn' _ (by decide))]
    exact h.file_of_hidden hn

/-- `gen_config_helper`. -/
theorem At.helps (h : At s0 s env ps F e r) (hn : Hidden env) {W : Machine} {ps2 : List Started} {F2 : Dict Str Str}
    (hh : Helper W (with_ s0 env) F ps2 F2) : ∃ s', rcLine W helperCommand s = (.ok (), s') ∧ At s0 s' env (ps ++ ps2) F2 e r := by
  rw [rcLine_helper, h.helper]
  have hfile : s.get py!"cmake_args_file" = (with_ s0 env).get py!"cmake_args_file" := h.get (by decide)
  have hsrc : s.get py!"path_to_src" = (with_ s0 env).get py!"path_to_src" := h.get (by decide)
  have hcond : ∀ v : Str, isFile s v = (Dict.get? F v).isSome := fun v => by unfold isFile; rw [h.files]
  cases hh with
  | undefined hu =>
    have hu : s0.helper = false := hu
    rw [hu, if_neg (by decide), List.append_nil]
    exact ⟨s, rfl, h⟩
  | nothing hu hor =>
    have hu : s0.helper = true := hu
    rw [hu, if_pos rfl, List.append_nil]
    refine ⟨s, ?_, h⟩
    unfold genConfigHelper
    rw [M.read_bind, hfile, hsrc, hcond]
    rw [if_neg]
    · rfl
    · rintro ⟨h1, h2, h3⟩
      rcases hor with h | h | h
      · exact h1 h
      · rw [h] at h2; cases h2
      · exact h3 h
  | @cmake text ws ss F2 st hu h1 h2 h3 h4 h5 h6 h7 h8 h9 =>
    have hu : s0.helper = true := hu
    rw [hu, if_pos rfl]
    unfold genConfigHelper
    rw [M.read_bind, hfile, hsrc, hcond]
    rw [if_pos ⟨h1, by rw [h3]; rfl, h6⟩]
    have hc := cat_ok h2 h1 s
    rw [h.files, h3, Option.getD_some] at hc
    rw [M.bind_ok hc, M.bind_ok (modify_ok _ _), M.read_bind]
    obtain ⟨a1, a2⟩ := h.assign hn (x := py!"cmake_args") (by decide) (by decide) (Bash.dropLineEnds text)
    have a3 : (Shell.assign py!"cmake_args" (Bash.dropLineEnds text) s).get py!"path_to_src" = (with_ s0 env).get py!"path_to_src" :=
      a1.get (by decide)
    rw [get_find a2, a3]
    generalize Shell.assign py!"cmake_args" _ s = t at a1
    rw [M.bind_ok (unquoted_ok (noPattern_dropLineEnds h4) t), M.bind_ok (unquoted_ok h7 t), (words_iff _ _).1 (words_dropLineEnds h5),
      (words_iff _ _).1 h8]
    have h9 : W.run (py!"cmake" :: (ws ++ ss)) env F = (st, F2) := h9
    obtain ⟨s', e1, e2, _⟩ := a1.start h9
    rw [M.bind_ok e1]
    rw [hu] at e2
    exact ⟨s', rfl, e2⟩

/-- The lines that are sourced in this shell. -/
theorem lines_ci (h : At s0 s env ps F e r) (hn : Hidden env) {W : Machine} {f t : Str} (hf : PlainName f) (ht : Dict.get? F f = some t)
    {o : Out Unit} {env' : Environ} (hl : W.load t env = (o, env')) :
    (∀ ps2 F2, o = .ok () → Hidden env' → Helper W (with_ s0 env') F ps2 F2 →
      ∃ s', M.forEach (rcStart f ++ [helperCommand]) (rcLine W) s = (.ok (), s') ∧ At s0 s' env' (ps ++ ps2) F2 e r) ∧
    (o ≠ .ok () → ∃ s', M.forEach (rcStart f ++ [helperCommand]) (rcLine W) s = (o, s') ∧ s'.environ = env' ∧ s'.helper = s0.helper ∧
      s'.started = s0.started ++ ps ∧ s'.files = F ∧ ∀ x, x ∉ loadEnvNames → Dict.get? s'.vars x = Dict.get? s0.vars x) := by
  obtain ⟨s1, e1, e2, e3, e4, e5, e6, e7⟩ := h.load hn hf ht hl
  refine ⟨fun ps2 F2 ho hn' hh => ?_, fun ho => ?_⟩
  · subst ho
    obtain ⟨s2, e8, e9⟩ := (e7 hn').helps hn' hh
    refine ⟨s2, ?_, e9⟩
    show M.forEach ((py!"source " ++ f) :: (echoLines ++ [helperCommand])) (rcLine W) s = _
    rw [forEach_cons, M.bind_ok e1, forEach_echo W echoLines_echo, forEach_single]
    exact e8
  · refine ⟨s1, ?_, e2, e3, e4, e5, e6⟩
    show M.forEach (_ :: _) (rcLine W) s = _
    rw [forEach_cons, M.bind_def, e1]
    cases o with
    | ok u => exact absurd rfl ho
    | exc e => rfl
    | diverge => rfl

theorem rcLine_ps1 (W : Machine) (s : Shell) : rcLine W py!"export PS1=\"($LOADED_ENV_NAME) $ \"" s =
    (.ok (), Shell.export py!"PS1" (py!"(" ++ (Dict.get? s.environ py!"LOADED_ENV_NAME").getD [] ++ py!") $ ") s) := rfl

theorem rcLine_mode (W : Machine) (s : Shell) : rcLine W py!"export LOAD_ENV_INTERACTIVE_MODE=\"True\"" s =
    (.ok (), Shell.export py!"LOAD_ENV_INTERACTIVE_MODE" py!"True" s) := rfl

/-- The lines for the interactive shell that only print. -/
def echoLines2 : List Str := rcInteractive.take 4

theorem echoLines2_echo : ∀ l ∈ echoLines2, List.isPrefixOf? py!"source " l = none ∧ py!"echo".isPrefixOf l = true := by decide

theorem At.export (h : At s0 s env ps F e r) (hn : Hidden env) {x : Str} (hx : x ∉ loadEnvNames) (hv : Dict.get? s0.vars x = none) (v : Str) :
    At s0 (Shell.export x v s) (Dict.set env x v) ps F e r ∧ Hidden (Dict.set env x v) := by
  have hn' : Hidden (Dict.set env x v) := fun y hy => (Dict.get?_set_ne _ _ (fun hh : y = x => hx (hh ▸ hy))).trans (hn y hy)
  refine ⟨⟨?_, h.helper, h.started, h.files, fun y hy => ?_, ?_, h.ret⟩, hn'⟩
  · show Dict.set s.environ x v = _
    rw [h.environ]
  · show Dict.get? (dictDel s.vars x) y = _
    by_cases hyx : y = x
    · rw [hyx, get?_dictDel_self, hv]
    · rw [get?_dictDel_ne _ hyx, h.vars y hy]
  · have : Dict.get? (Shell.export x v s).environ py!"env_file" = none := by
      show Dict.get? (Dict.set s.environ x v) _ = none
      rw [h.environ]
      exact hn' _ (by decide)
    rw [find_vars this]
    show Dict.get? (dictDel s.vars x) _ = _
    rw [get?_dictDel_ne _ (fun hh => hx (by rw [← hh]; decide)), h.file_of_hidden hn]

/-- The lines that the interactive shell starts with. -/
theorem lines_inside {W : Machine} (env : Environ) (helper : Bool) (F : Dict Str Str) (hn : Hidden env) {f t : Str} (hf : PlainName f)
    (ht : Dict.get? F f = some t) {env' : Environ} (hl : W.load t env = (.ok (), env')) (hn' : Hidden env') :
    ∃ env2, Prompted env' env2 ∧ ∀ ps2 F2, Helper W (newShell env2 helper F) F ps2 F2 →
      ∃ s', M.forEach (rcStart f ++ rcInteractive) (rcLine W) (newShell env helper F) = (.ok (), s') ∧
        s'.environ = env2 ∧ s'.started = ps2 ∧ s'.files = F2 := by
  obtain ⟨s1, e1, _, _, _, _, _, e7⟩ := (At.init (newShell env helper F)).load hn hf ht hl
  have h1 := e7 hn'
  obtain ⟨h2, n2⟩ := h1.export hn' (x := py!"PS1") (by decide) rfl (py!"(" ++ (Dict.get? s1.environ py!"LOADED_ENV_NAME").getD [] ++ py!") $ ")
  obtain ⟨h3, n3⟩ := h2.export n2 (x := py!"LOAD_ENV_INTERACTIVE_MODE") (by decide) rfl py!"True"
  refine ⟨Dict.set (Dict.set env' py!"PS1" (py!"(" ++ (Dict.get? s1.environ py!"LOADED_ENV_NAME").getD [] ++ py!") $ "))
    py!"LOAD_ENV_INTERACTIVE_MODE" py!"True", ⟨?_, Dict.get?_set_self .., fun x hx1 hx2 => ?_⟩, fun ps2 F2 hh => ?_⟩
  rotate_left
  · exact (Dict.get?_set_ne _ _ hx2).trans (Dict.get?_set_ne _ _ hx1)
  · obtain ⟨s2, e8, e9⟩ := h3.helps n3 hh
    refine ⟨s2, ?_, e9.environ, e9.started, e9.files⟩
    show M.forEach ((py!"source " ++ f) :: (echoLines ++ (echoLines2 ++ [_, _, helperCommand]))) (rcLine W) _ = _
    rw [forEach_cons, M.bind_ok e1, forEach_echo W echoLines_echo, forEach_echo W echoLines2_echo, forEach_cons,
      M.bind_ok (rcLine_ps1 W s1), forEach_cons, M.bind_ok (rcLine_mode W _), forEach_single]
    exact e8
  · rw [Dict.get?_set_ne _ _ (by decide), h1.environ]
    exact Dict.get?_set_self ..

theorem ci_step {W : Machine} (hfit : Fit W s0) (h : At s0 s s0.environ ps F e r) {loc : Str} (hl : s.find py!"load_matching_env_loc" = some loc) (v : Str) :
    At s0 (Shell.assign py!"ci_mode" v s) s0.environ ps F e r ∧ (Shell.assign py!"ci_mode" v s).find py!"load_matching_env_loc" = some loc := by
  refine ⟨(h.assign hfit.unexported (by decide) (by decide) v).1, ?_⟩
  have h1 : Dict.get? s.environ py!"ci_mode" = none := by rw [h.environ]; exact hfit.unexported _ (by decide)
  have h2 : Dict.get? s.environ py!"load_matching_env_loc" = none := by rw [h.environ]; exact hfit.unexported _ (by decide)
  rw [assign_eq h1, ← hl, find_vars h2]
  exact (find_vars (s := { s with vars := Dict.set s.vars py!"ci_mode" v }) h2).trans (Dict.get?_set_ne _ _ (by decide))

theorem ci_iff (args : List Str) : isSubstr py!"--ci-mode" (joinStr py!" " args) = true ↔ AsksForCi args := by
  rw [isSubstr_iff]
  constructor
  · intro h t ht
    rw [separated_det ht]
    exact h
  · intro h
    exact h _ (joinStr_separated _ _)

end

end CPE.KW.Script
