import Verif.Proofs.Programs
/-
C73: the programs load_env.py and gen_config.py from their command lines and the texts of their files to what they leave,
alone and as part of load-env.sh and gen-config.sh.
-/
namespace CPE.Props
open CPE CPE.KW CPE.KW.Script CPE.KW.Spec CPE.SetEnv CPE.SetEnv.Spec CPE.Cli
open CPE.Spec hiding Item

section
variable {P : Place} {argv : List Str} {is : List Cli.Item} {f1 f2 f3 : Str} {doc d1 d2 d3 : Doc} {environ : Environ} {files : Dict Str Str}
  {S : Site} {b : Str} {f : Bool} {L : Left}

/-- C73: what the programs find under a path. A file that was there or was written has its text; what is no such file is what
the disk has: a directory or nothing at all is an IOError when an .ini file is expected there, a file that cannot be opened reads
as an empty configuration, and a text reads as what it says. -/
theorem C73_files (P : Place) (files : Dict Str Str) (p : Str) :
    (∀ t, Dict.get? files (P.key p) = some t → P.disk files p = .file t) ∧
    (Dict.get? files (P.key p) = none →
      (P.other p = .absent ∨ P.other p = .dir → readIni (P.disk files) p = .exc .ioError) ∧
      (P.other p = .unreadable → ∃ c, readIni (P.disk files) p = .ok c ∧ c.sectionNames = []) ∧
      (∀ doc, HasDoc P.other p doc → readIni (P.disk files) p = .ok (confOf doc))) := by
  have hd : Dict.get? files (P.key p) = none → P.disk files p = P.other p := fun h => by unfold Place.disk; rw [h]
  refine ⟨fun t h => by unfold Place.disk; rw [h], fun h => ⟨fun ho => ?_, fun ho => ?_, fun doc ho => ?_⟩⟩
  · apply readIni_absent
    rw [hd h]
    rcases ho with ho | ho <;> rw [ho] <;> rfl
  · exact ⟨_, readIni_unreadable ((hd h).trans ho), rfl⟩
  · obtain ⟨text, h1, h2⟩ := ho
    exact readIni_doc ⟨text, (hd h).trans h1, h2⟩

/-- C73: load_env.py with a command line that can be read and files that can be read. Either the environment that the build
name stands for is applied, the script for it is written to the temporary file and to `--output`, the path of the temporary
file is written to `--load-matching-env-location`, and no other file changes; or the program fails and no file changes. -/
theorem C73_load_env (hr : Reading P.neg leUsage argv is) (hu : Cli.Usable is) (hl : switched py!"list_envs" is = false)
    (hf : LeFiles P (P.disk files) is f1 f2 f3 doc) (h1 : HasDoc (P.disk files) f1 d1) (h2 : HasDoc (P.disk files) f2 d2)
    (h3 : HasDoc (P.disk files) f3 d3) (hS : S = siteOf P f2 d1 d2 d3) (hb : b = (wordsOf is).headD []) (hff : f = switched py!"force" is)
    (hn : NoHookOptions S.env) (hclean : ∀ q l, EnvironmentIs S.tool b f q → EnvActions S q l → ∀ x ∈ l, Clean x)
    (hL : L = leProgram P argv environ files) {output location : Option Str}
    (ho : output = (lastValue py!"output" is).map fun x => P.key (P.resolve x))
    (hloc : location = (lastValue py!"load_matching_env_location" is).map fun x => P.key (P.resolve x)) :
    (∃ q l ms ls, EnvironmentIs S.tool b f q ∧ EnvActions S q l ∧ Program S.sys l ms ∧ Goes ms environ (.ok ()) L.environ ∧
      CommandLines py!"bash" l ls ∧ L.outcome = .ok () ∧
      ∀ g, (location = some g → Dict.get? L.files g = some P.tmp) ∧
        (location ≠ some g → g = P.tmp ∨ output = some g → Dict.get? L.files g = some (matchingScript S ls q)) ∧
        (location ≠ some g → g ≠ P.tmp → output ≠ some g → Dict.get? L.files g = Dict.get? files g)) ∨
    (L.outcome ≠ .ok () ∧ L.files = files) := by
  subst hS hb hff
  have hp := leProgram_main (environ := environ) hr hu hl hf h1 h2 h3
  rw [← hL, show target P py!"output" is = output from ho.symm, show target P py!"load_matching_env_location" is = location from hloc.symm] at hp
  have hm := C61_main (W := siteOf P f2 d1 d2 d3) (b := (wordsOf is).headD []) (f := switched py!"force" is) (environ := environ)
    (files := files) hn hclean P.tmp output location
  dsimp only at hm
  generalize App.main (siteOf P f2 d1 d2 d3) false P.tmp output location (App.new ((wordsOf is).headD []) (switched py!"force" is) environ files) = r at hm hp
  subst hp
  rcases hm with ⟨q, l, ms, ls, env', g1, g2, g3, g4, g5, g6, g7, g8⟩ | ⟨g1, g2, g3⟩
  · subst g7
    exact .inl ⟨q, l, ms, ls, g1, g2, g3, g4, g5, g6, g8⟩
  · exact .inr ⟨g1 (), g3⟩

/-- C73: load_env.py with `--list-envs` changes no file and not its environment; it ends with SystemExit after the list, or with the
failure to find the system or to read its environments. environment-specs.ini is not read. -/
theorem C73_list (hr : Reading P.neg leUsage argv is) (hu : Cli.Usable is) (hl : switched py!"list_envs" is = true)
    (hf : LeFiles P (P.disk files) is f1 f2 f3 doc) (h1 : HasDoc (P.disk files) f1 d1) (h2 : HasDoc (P.disk files) f2 d2)
    (hb : b = (wordsOf is).headD []) (hff : f = switched py!"force" is) {T : Tool} (hT : T = (siteOf P f2 d1 d2 []).tool)
    (hL : L = leProgram P argv environ files) :
    L.environ = environ ∧ L.files = files ∧
    (∀ e, (DS.systemName (cls T.systems) T.fuel T.host (DS.new (cls T.systems) b f)).1 = .exc e → L.outcome = .exc e) ∧
    (∀ s, SystemIs T b f s →
      (∀ e, EKP.new (cls T.envs) T.fuel b s = .exc e → L.outcome = .exc e) ∧
      (∀ k, EKP.new (cls T.envs) T.fuel b s = .ok k → L.outcome = .exc .systemExit)) := by
  subst hb hff hT
  rw [leProgram_list hr hu hl hf h1 h2] at hL
  subst hL
  obtain ⟨g1, g2⟩ := C61_list (W := siteOf P f2 d1 d2 []) P.tmp (target P py!"output" is) (target P py!"load_matching_env_location" is)
  obtain ⟨k1, k2, _⟩ := g1 (App.new ((wordsOf is).headD []) (switched py!"force" is) environ files)
  obtain ⟨j1, j2⟩ := g2 ((wordsOf is).headD []) (switched py!"force" is) environ files
  exact ⟨k1, k2, j1, j2⟩

/-- C73: nothing happens if load-env.ini does not name the three files (ValueError), if the command line cannot be read or calls for
help (SystemExit), or if one of the three files is not there. -/
theorem C73_nothing (hd : TopDoc P.fuel (P.disk files) P.leIni false loadEnvSections [] doc) (hL : L = leProgram P argv environ files) :
    (¬ NamesFiles (baseEnv (confOf doc) 0) (P.disk files) P.leIni false loadEnvFiles →
      L = { outcome := .exc .valueError, environ := environ, files := files }) ∧
    (NamesFiles (baseEnv (confOf doc) 0) (P.disk files) P.leIni false loadEnvFiles →
      ((∀ w ∈ argv, ¬ Odd w) ∧ (¬ ∃ is, Reading P.neg leUsage argv is ∧ Cli.Usable is)) ∨
        (∃ is, Reading P.neg leUsage argv is ∧ ¬ Cli.Usable is) →
      L = { outcome := .exc .systemExit, environ := environ, files := files }) ∧
    (∀ is f1 f2 f3, Reading P.neg leUsage argv is → Cli.Usable is → switched py!"list_envs" is = false →
      LeFiles P (P.disk files) is f1 f2 f3 doc → (∃ p ∈ [f1, f2, f3], (P.disk files p).isFile = false) →
      L.outcome ≠ .ok () ∧ L.environ = environ ∧ L.files = files) := by
  subst hL
  refine ⟨fun hn => ?_, fun hN hc => ?_, fun is f1 f2 f3 hr hu hl hf ha => ?_⟩
  · obtain ⟨_, h⟩ := (access_once (n := P.fuel) (t := loadEnvTop) loadEnvTop_proper
      ((readIni_newOn _ P.leIni).trans (readIni_doc hd.hasDoc)) hd.fuel hd.apart hd.sections).2 hn
    have hx : leArgs P.fuel (P.disk files) P.leIni P.resolve P.neg argv = .exc .valueError := by
      unfold leArgs
      rw [h]
    unfold leProgram
    rw [hx]
  · have hp : leParse P.resolve P.neg argv = .exc .systemExit := by
      rcases hc with ⟨h1, h2⟩ | ⟨is, h1, h2⟩
      · exact C72_refused (is := []) |>.1 h1 fun x hx => h2 (let ⟨is, a, b, _⟩ := (C72_loadenv x).1 hx; ⟨is, a, b⟩)
      · exact (C72_refused (argv := argv) (is := is)).2.2.1 h1 h2
    have hx := leArgs_refused (P := P) (fs := P.disk files) (argv := argv) ⟨hd.hasDoc, hd.fuel, hd.apart, hd.sections, hN⟩ hp
    unfold leProgram
    rw [hx]
  · have hp := leProgram_ok (environ := environ) hr hu hf
    dsimp only at hp
    rw [hp]
    exact leWork_absent (a := leMeaning P.resolve is) (x := App.new _ _ environ files) hl ha

/-- The words that load-env.sh puts in front do not change what the others say. -/
theorem located {loc : Str} (hp : Cli.Plain P.neg leUsage loc) (hr : Reading P.neg leUsage argv is) (hu : Cli.Usable is)
    (hno : lastValue py!"load_matching_env_location" is = none) :
    ∃ js, Reading P.neg leUsage (py!"--load-matching-env-location" :: loc :: argv) js ∧ Cli.Usable js ∧ wordsOf js = wordsOf is ∧
      (∀ d, d ≠ py!"load_matching_env_location" → switched d js = switched d is ∧ lastValue d js = lastValue d is) ∧
      lastValue py!"load_matching_env_location" js = some loc := by
  let o : Opt := ⟨[py!"--load-matching-env-location"], py!"load_matching_env_location", .store⟩
  have hn : Named leUsage py!"--load-matching-env-location" o := ⟨by decide +kernel, by decide +kernel⟩
  refine ⟨.act o (some loc) :: is, .next (.inl hn) rfl hp hr, ⟨hu.1, fun o' v hm => ?_⟩, rfl, fun d hd => ⟨?_, ?_⟩, ?_⟩
  · rcases List.mem_cons.1 hm with hm | hm
    · cases hm; decide
    · exact hu.2 o' v hm
  · rw [switched, decide_eq_false (show o.dest ≠ d from fun h => hd h.symm)]; rfl
  · show (match lastValue d is with | some x => some x | none => if o.dest = d then some loc else none) = _
    rw [if_neg (show o.dest ≠ d from fun h => hd h.symm)]
    cases lastValue d is <;> rfl
  · show (match lastValue py!"load_matching_env_location" is with | some x => some x | none => if o.dest = py!"load_matching_env_location" then some loc else none) = _
    rw [hno]
    exact if_pos rfl

theorem fileOption_congr {resolve : Str → Str} {is js : List Cli.Item}
    (h : ∀ d, d ≠ py!"load_matching_env_location" → switched d js = switched d is ∧ lastValue d js = lastValue d is) :
    fileOption resolve js = fileOption resolve is := by
  funext ⟨s, k⟩
  unfold fileOption
  rw [(h py!"supported_config_flags_file" (by decide +kernel)).2, (h py!"config_specs_file" (by decide +kernel)).2,
    (h py!"supported_systems_file" (by decide +kernel)).2, (h py!"supported_envs_file" (by decide +kernel)).2,
    (h py!"environment_specs_file" (by decide +kernel)).2]

/-- C73, from the words of the user to the environment of the shell: `source load-env.sh --ci-mode ... <build name>`, where load-env.sh
starts load_env.py and the files say `doc`, `d1`, `d2` and `d3`. Either the shell gets the environment that the actions of the
environment section make of the one it had, and LOADED_ENV_NAME says which environment that is; or load-env.sh returns a status
other than 0 and the shell keeps the environment it had. -/
theorem C73_source {W : Machine} {s : Shell} {args ws : List Str} {tools : Bash.Tools} (hfit : Fit W s) (hus : KW.Spec.Usable W s)
    (hff : FitFile (s.find py!"env_file")) (hne : args ≠ []) (hpat : ∀ a ∈ args, NoPattern a) (hpass : Passed args ws) (hci : AsksForCi args)
    (hh : s.helper = false) (hprog : HasLoadEnv W P) (hload : W.load = source tools P.sys.bashHeader)
    -- the command line
    (hr : Reading P.neg leUsage ws is) (hu : Cli.Usable is) (hl : switched py!"list_envs" is = false)
    (hno : lastValue py!"load_matching_env_location" is = none) (hnoo : lastValue py!"output" is = none)
    (hb : b = (wordsOf is).headD []) (hf : f = switched py!"force" is)
    -- the files
    (hfiles : LeFiles P (P.disk s.files) is f1 f2 f3 doc) (h1 : HasDoc (P.disk s.files) f1 d1) (h2 : HasDoc (P.disk s.files) f2 d2)
    (h3 : HasDoc (P.disk s.files) f3 d3) (hS : S = siteOf P f2 d1 d2 d3)
    (hkey : P.key (P.resolve (location W)) = location W) (htmp : ScriptPath P.tmp) (hloc : P.tmp ≠ location W) (hlocrc : ¬ RcOf P.tmp (location W))
    -- the environment
    (hn : NoHookOptions S.env) (hclean : ∀ q l, EnvironmentIs S.tool b f q → EnvActions S q l → ∀ x ∈ l, Clean x)
    (hport : ∀ q l, EnvironmentIs S.tool b f q → EnvActions S q l → PortableRun S.sys tools s.environ l)
    (hplain : ∀ q, EnvironmentIs S.tool b f q → KW.Spec.PlainName q)
    (hkeep : ∀ q l ms env', EnvironmentIs S.tool b f q → EnvActions S q l → Program S.sys l ms → Goes ms s.environ (.ok ()) env' →
      Hidden env' ∧ Solid ((with_ s env').get py!"USER")) :
    (∃ q l ms env' s', EnvironmentIs S.tool b f q ∧ EnvActions S q l ∧ Program S.sys l ms ∧ Goes ms s.environ (.ok ()) env' ∧
      loadEnv W args s = (.ok 0, s') ∧ Leaves s s' (Dict.set env' py!"LOADED_ENV_NAME" q) [⟨pythonCall W ws, s.environ, false⟩] ∧ Tidy s' ∧
      Dict.get? s'.files P.tmp = none ∧ Dict.get? s'.files (location W) = some P.tmp) ∨
    (∃ st s', st ≠ 0 ∧ loadEnv W args s = (.ok st, s') ∧ Leaves s s' s.environ [⟨pythonCall W ws, s.environ, false⟩] ∧ Tidy s' ∧
        Removed s.files s'.files (Gone (s.get py!"USER") (s.find py!"env_file"))) := by
  obtain ⟨js, r1, r2, r3, r4, r5⟩ := located (loc := location W) (.inl (by simp [location])) hr hu hno
  have hfj : LeFiles P (P.disk s.files) js f1 f2 f3 doc := by
    have := fileOption_congr (resolve := P.resolve) r4
    exact ⟨hfiles.toTopDoc, this ▸ hfiles.systems, this ▸ hfiles.envs, this ▸ hfiles.specs⟩
  have hlj : switched py!"list_envs" js = false := (r4 _ (by decide +kernel)).1.trans hl
  have hp := leProgram_main (environ := s.environ) r1 r2 hlj hfj h1 h2 h3
  rw [r3, (r4 py!"force" (by decide +kernel)).1, ← hb, ← hf, ← hS] at hp
  have ho : Cli.target P py!"output" js = none := by
    unfold Cli.target; rw [(r4 py!"output" (by decide +kernel)).2, hnoo]; rfl
  have hlo : Cli.target P py!"load_matching_env_location" js = some (location W) := by
    unfold Cli.target; rw [r5]; exact congrArg some hkey
  rw [ho, hlo] at hp
  obtain ⟨p1, p2⟩ := hprog (py!"--load-matching-env-location" :: location W :: ws) s.environ s.files
  have p2 := p2 js r1 r2 hlj
  rw [hp] at p1 p2
  have hserve : RunsLoadEnv W (pythonCall W ws) s.environ s.files S b f P.tmp (location W) := ⟨p1, p2⟩
  have hsys : S.sys = P.sys := by rw [hS]; rfl
  have hm := C61_main (W := S) (b := b) (f := f) (environ := s.environ) (files := s.files) hn hclean P.tmp none (some (location W))
  rcases C65_program (S := S) (tools := tools) (b := b) (tmp := P.tmp) (f := f) hfit hus hff hne hpat hpass hci hh hserve (hsys ▸ hload) hn htmp hloc
    hlocrc hclean hport hplain (fun a ha => by
      dsimp only at hm
      rw [ha] at hm
      rcases hm with ⟨q, l, ms, ls, env', g1, g2, g3, g4, _, _, g7, _⟩ | ⟨g1, _⟩
      · dsimp only at g7
        rw [g7]
        exact hkeep q l ms env' g1 g2 g3 g4
      · exact absurd rfl (g1 ())) with ⟨a, q, l, ms, env', s', _, _, g1, g2, g3, g4, g5⟩ | ⟨_, g⟩
  · exact .inl ⟨q, l, ms, env', s', g1, g2, g3, g4, g5⟩
  · exact .inr g

end

/-! ### A concrete case -/

namespace ProgExample
open IniExample

/-- Lines for an option, for a section, and the text of a document. -/
def optLines : DocOption → List Str
  | (k, some (v :: vs)) => (k ++ ':' :: ' ' :: v) :: vs.map fun t => ' ' :: ' ' :: t
  | (k, _) => [k]

def docLines : Doc → List Str
  | [] => []
  | (s, os) :: doc => ('[' :: s ++ [']']) :: os.flatMap optLines ++ docLines doc

def docText (doc : Doc) : Str := (docLines doc).flatMap fun l => l ++ ['\n']

def OptOk : DocOption → Prop
  | (k, some (v :: vs)) => CPE.Spec.GoodKey ds k ∧ Tight v ∧ CPE.Spec.OneLine v ∧ ∀ t ∈ vs, t ≠ [] ∧ Tight t ∧ CPE.Spec.OneLine t ∧ ∀ c, t.head? = some c → c ≠ '#' ∧ c ≠ ';'
  | (k, none) => CPE.Spec.GoodKey ds k
  | (_, some []) => False

instance (o : DocOption) : Decidable (OptOk o) := by
  obtain ⟨k, _ | _ | ⟨v, vs⟩⟩ := o <;> unfold OptOk <;> infer_instance

def DocOk (doc : Doc) : Prop := ∀ x ∈ doc, x.1 ≠ [] ∧ CPE.Spec.OneLine x.1 ∧ ∀ o ∈ x.2, OptOk o

instance (doc : Doc) : Decidable (DocOk doc) := inferInstanceAs (Decidable (∀ x ∈ doc, _))

theorem more_text {vs : List Str} (h : ∀ t ∈ vs, t ≠ [] ∧ Tight t ∧ CPE.Spec.OneLine t ∧ ∀ c, t.head? = some c → c ≠ '#' ∧ c ≠ ';') :
    MoreLines 0 (vs.map fun t => ' ' :: ' ' :: t) vs := by
  induction vs with
  | nil => exact .nil
  | cons t vs ih =>
    obtain ⟨h1, h2, h3, h4⟩ := h t List.mem_cons_self
    have := MoreLines.text (i := 0) (w := py!"  ") (e := []) (by decide +kernel) (by decide) h1 h2 h3 h4 (by decide +kernel)
      (ih fun x hx => h x (List.mem_cons_of_mem _ hx))
    rw [List.append_nil] at this
    exact this

theorem opt_text {o : DocOption} (h : OptOk o) : OptionText ds 0 (optLines o) o := by
  obtain ⟨k, _ | _ | ⟨v, vs⟩⟩ := o
  · have := OptionLine.bare (ds := ds) (i := 0) (w := []) (e := []) (k := k) (by decide +kernel) rfl h (by decide +kernel)
    rw [List.append_nil] at this
    exact .bare this (by simp)
  · exact h.elim
  · obtain ⟨h1, h2, h3, h4⟩ := h
    have := OptionLine.value (ds := ds) (i := 0) (w := []) (e := []) (a := []) (b := py!" ") (d := ':') (by decide +kernel) rfl h1 (by decide +kernel)
      (by decide) (by decide +kernel) h2 h3 (by decide +kernel)
    simp only [List.append_nil, List.nil_append] at this
    exact .value (by simpa using this) (more_text h4)

theorem body_text {os : List DocOption} (h : ∀ o ∈ os, OptOk o) : BodyText ds 0 (os.flatMap optLines) os := by
  induction os with
  | nil => exact .nil
  | cons o os ih => exact .cons (opt_text (h o List.mem_cons_self)) (ih fun x hx => h x (List.mem_cons_of_mem _ hx))

theorem doc_lines {doc : Doc} (h : DocOk doc) : SectionsText ds (docLines doc) doc := by
  induction doc with
  | nil => exact .nil
  | cons x doc ih =>
    obtain ⟨h1, h2, h3⟩ := h x List.mem_cons_self
    exact SectionsText.cons (skip := []) (.mk (junk := []) h1 h2 (by decide) (by simp)) (by simp) (body_text h3)
      (ih fun y hy => h y (List.mem_cons_of_mem _ hy))

theorem says_text {doc : Doc} (h : DocOk doc) : Spec.Says ds (docText doc) doc := by
  refine ⟨[], docLines doc, by simp, doc_lines h, ?_⟩
  unfold docText
  rw [List.nil_append]
  generalize docLines doc = ls
  induction ls with
  | nil => exact .nil
  | cons l ls ih =>
    rw [List.flatMap_cons, List.append_assoc]
    exact .unix ih

theorem hasDoc {fs : FS} {p : Str} {doc : Doc} (h : DocOk doc ∧ doc.Strict) (hp : fs p = .file (docText doc)) : HasDoc fs p doc :=
  ⟨_, hp, says_text h.1, h.2⟩

/-- load-env.ini, with two sections. -/
def topDoc : Doc :=
  [(py!"common", [(py!"supported-systems", some [py!"systems.ini"])]),
   (py!"load-env", [(py!"use common", none), (py!"supported-envs", some [py!"/c/envs.ini"]), (py!"environment-specs", some [py!"./specs.ini"])])]

/-- The files of the examples for C61, as documents. -/
def systemsDoc : Doc :=
  [(py!"machine-1", [(py!"login.*", some [[]]), (py!"node-1  # compute nodes", some [[]])]), (py!"machine-2", [(py!"node-2", some [[]])])]
def envsDoc : Doc :=
  [(py!"machine-1", [(py!"gnu-9-openmpi", some [py!"gnu", py!"default-env"]), (py!"intel-19", some [py!"intel"])]),
   (py!"machine-2", [(py!"arm-20", some [py!"arm", py!"default-env"])])]
def specsDoc : Doc :=
  [(py!"COMMON", [(py!"envvar-set ROOT", some [py!"${HOME}/sw"])]),
   (py!"machine-1_gnu-9-openmpi", [(py!"use COMMON", none), (py!"envvar-append PATH", some [py!"$ROOT/bin"]), (py!"module-load gcc", some [py!"4.8"])]),
   (py!"machine-1_intel-19", [(py!"module-swap gcc", some [py!"intel"]), (py!"envvar-set ROOT", some [py!"/opt"])])]

/-- The shell is in /w; its files there are known by their relative paths. -/
def resolve0 (p : Str) : Str := if p.head? = some '/' then p else py!"/w/" ++ p
def key0 (p : Str) : Str := if (py!"/w/").isPrefixOf p then p.drop 3 else p

def place0 : Place where
  fuel := 10
  host := host1
  sys := exampleSys
  resolve := resolve0
  neg := noNeg
  key := key0
  other := fun _ => .absent
  leIni := py!"/c/load-env.ini"
  gcIni := py!"/c/gen-config.ini"
  tmp := py!"/tmp/t.sh"
  out := py!"/tmp/frag"
  loc := py!".bash_cmake_args_loc"
  gen := fun _ => exGen
  relative := fun p => if p = py!"/c/envs.ini" then py!"envs.ini" else p

/-- A directory, a file that cannot be opened, and one that was written: the cases of C73_files. -/
example :
    let P : Place := { place0 with key := id, other := fun p => if p = py!"/d" then .dir else if p = py!"/u" then .unreadable else .absent }
    (readIni (P.disk [(py!"/w", py!"[A]\nk = v\n")]) py!"/d", readIni (P.disk [(py!"/w", py!"[A]\nk = v\n")]) py!"/n") =
      (.exc .ioError, .exc .ioError) ∧
    (∃ c, readIni (P.disk [(py!"/w", py!"[A]\nk = v\n")]) py!"/u" = .ok c ∧ c.sectionNames = []) ∧
    P.disk [(py!"/w", py!"[A]\nk = v\n")] py!"/w" = .file py!"[A]\nk = v\n" := by
  intro P
  obtain ⟨a, _⟩ := C73_files P [(py!"/w", py!"[A]\nk = v\n")] py!"/w"
  obtain ⟨_, b⟩ := C73_files P [(py!"/w", py!"[A]\nk = v\n")] py!"/d"
  obtain ⟨_, c⟩ := C73_files P [(py!"/w", py!"[A]\nk = v\n")] py!"/n"
  obtain ⟨_, d⟩ := C73_files P [(py!"/w", py!"[A]\nk = v\n")] py!"/u"
  refine ⟨?_, (d (by decide)).2.1 (by decide), a _ (by decide)⟩
  rw [(b (by decide)).1 (.inr (by decide)), (c (by decide)).1 (.inl (by decide))]

def inis : Dict Str Str :=
  [(py!"/c/load-env.ini", docText topDoc), (py!"/c/systems.ini", docText systemsDoc), (py!"/c/envs.ini", docText envsDoc),
   (py!"/c/specs.ini", docText specsDoc)]

theorem inis_systems (fs : Dict Str Str) : HasDoc (place0.disk (inis ++ fs)) py!"/c/systems.ini" systemsDoc := hasDoc (by decide +kernel) rfl
theorem inis_envs (fs : Dict Str Str) : HasDoc (place0.disk (inis ++ fs)) py!"/c/envs.ini" envsDoc := hasDoc (by decide +kernel) rfl
theorem inis_specs (fs : Dict Str Str) : HasDoc (place0.disk (inis ++ fs)) py!"/c/specs.ini" specsDoc := hasDoc (by decide +kernel) rfl

theorem top_sound : Sound (baseEnv (confOf topDoc) 0) py!"load-env" ∧ Resolved (baseEnv (confOf topDoc) 0) py!"load-env"
    [(py!"supported-systems", some py!"systems.ini"), (py!"supported-envs", some py!"/c/envs.ini"), (py!"environment-specs", some py!"./specs.ini")] :=
  sound_computed (n := 10) (by decide) (by decide) (by decide +kernel) (by decide +kernel)

theorem chosen_of {resolve : Str → Str} {g : Str × Str → Option Str} {k a : Str} (hg : g (py!"load-env", k) = none) {v : Str}
    (hv : Dict.get? [(py!"supported-systems", some py!"systems.ini"), (py!"supported-envs", some py!"/c/envs.ini"),
      (py!"environment-specs", some py!"./specs.ini")] k = some (some v)) (ha : a = resolve (PPath.ofStr (place py!"/c/load-env.ini" v)).toStr) :
    CPE.Spec.Chosen (baseEnv (confOf topDoc) 0) py!"/c/load-env.ini" resolve g py!"load-env" k a :=
  .inr ⟨hg, _, v, _, _, top_sound.2, hv, (pointsTo_iff ..).2 rfl, (normal_iff ..).2 rfl, ha⟩

theorem top_of {fs : FS} (h : fs py!"/c/load-env.ini" = .file (docText topDoc)) :
    TopDoc 10 fs py!"/c/load-env.ini" false loadEnvSections loadEnvFiles topDoc := by
  refine ⟨hasDoc (by decide +kernel) h, by decide, fun h => absurd h (by decide +kernel), fun s hs => ?_, fun s k hk => ?_⟩
  · simp only [loadEnvSections, List.mem_singleton] at hs
    subst hs
    exact ⟨by decide +kernel, top_sound.1⟩
  · simp only [loadEnvFiles, List.mem_cons, List.not_mem_nil, or_false, Prod.mk.injEq] at hk
    rcases hk with ⟨rfl, rfl⟩ | ⟨rfl, rfl⟩ | ⟨rfl, rfl⟩ <;>
      exact ⟨_, top_sound.2, (goodPath_iff ..).2 ⟨_, rfl, by decide, fun h => by cases h⟩⟩

theorem inis_top (fs : Dict Str Str) : TopDoc 10 (place0.disk (inis ++ fs)) py!"/c/load-env.ini" false loadEnvSections loadEnvFiles topDoc :=
  top_of rfl

/-- Without options that name files, the files are those of load-env.ini. -/
theorem inis_files (fs : Dict Str Str) {is : List Cli.Item} (h : ∀ k, fileOption resolve0 is (py!"load-env", k) = none) :
    LeFiles place0 (place0.disk (inis ++ fs)) is py!"/c/systems.ini" py!"/c/envs.ini" py!"/c/specs.ini" topDoc :=
  ⟨inis_top fs, chosen_of (h _) rfl (by decide +kernel), chosen_of (h _) rfl (by decide +kernel), chosen_of (h _) rfl (by decide +kernel)⟩

/-- `-o x gnu_teko` -/
def items0 : List Cli.Item := [.act ⟨[py!"-o", py!"--output"], py!"output", .store⟩ (some py!"x"), .word py!"gnu_teko"]

theorem reading0 : Reading noNeg leUsage [py!"-o", py!"x", py!"gnu_teko"] items0 :=
  .next (.inl ⟨by decide +kernel, by decide +kernel⟩) rfl (.inl (by decide)) (.word (.inl (by decide)) .done)

theorem usable0 : Cli.Usable items0 := ⟨by decide, fun o v h => by
  rcases List.mem_cons.1 h with h | h
  · cases h; decide
  · rw [List.mem_singleton] at h; cases h⟩

theorem noFiles {is : List Cli.Item} (h : (lastValue py!"supported_systems_file" is, lastValue py!"supported_envs_file" is,
    lastValue py!"environment_specs_file" is, lastValue py!"supported_config_flags_file" is, lastValue py!"config_specs_file" is) = (none, none, none, none, none)) (k : Str) :
    fileOption resolve0 is (py!"load-env", k) = none := by
  simp only [Prod.mk.injEq] at h
  obtain ⟨h1, h2, h3, h4, h5⟩ := h
  unfold fileOption
  dsimp only
  rw [h1, h2, h3, h4, h5]
  repeat (split; rfl)
  rfl

/-- The site is that of the examples for C61, apart from the files of gen-config. -/
def site2 : Site := siteOf place0 py!"/c/envs.ini" systemsDoc envsDoc specsDoc

theorem site2_eq : site2 = { site0 with tool := { site0.tool with flags := emptyCfg, specs := emptyCfg } } := rfl

theorem site2_only {q : Str} (h : EnvironmentIs site2.tool py!"gnu_teko" false q) : q = py!"machine-1_gnu-9-openmpi" := site_only h

theorem site2_clean {q : Str} {l : List Action} (hq : EnvironmentIs site2.tool py!"gnu_teko" false q) (hl : EnvActions site2 q l) :
    ∀ x ∈ l, Clean x := site_clean hq hl

/-- The hypotheses of C73_load_env are met. -/
example (fs : Dict Str Str) := C73_load_env (P := place0) (environ := exampleEnviron) (files := inis ++ fs) reading0 usable0 rfl (inis_files fs (noFiles rfl))
  (inis_systems fs) (inis_envs fs) (inis_specs fs) rfl rfl rfl site_noHooks (fun _ _ => site2_clean) rfl rfl rfl

/-- The whole program, computed from the texts of the files. -/
example :
    let L := leProgram place0 [py!"-o", py!"x", py!"--load-matching=where", py!"gnu_teko"] exampleEnviron (inis ++ [(py!"x", py!"old"), (py!"y", py!"z")])
    L.outcome = .ok () ∧ L.environ = siteEnviron ∧ Dict.get? L.files py!"where" = some py!"/tmp/t.sh" ∧ Dict.get? L.files py!"y" = some py!"z" ∧
    Dict.get? L.files py!"x" = Dict.get? L.files py!"/tmp/t.sh" ∧ Dict.get? L.files py!"x" = some (py!"#!/usr/bin/env bash\n# bash\n\n" ++ banner ++
      py!"envvar_op set \"ROOT\" \"${HOME}/sw\"\nenvvar_op append \"PATH\" \"$ROOT/bin\"\nmodule load gcc/4.8\n\n\n" ++
      py!"export LOADED_ENV_NAME=machine-1_gnu-9-openmpi") := by
  refine ⟨?_, ?_, ?_, ?_, ?_, ?_⟩ <;> decide +kernel

/-- Another file for the environments, by the command line: it is not there. -/
example :
    (leProgram place0 [py!"--supported-envs", py!"e.ini", py!"gnu_teko"] exampleEnviron inis).outcome = .exc .ioError ∧
    (leProgram place0 [py!"--list-envs"] exampleEnviron inis).outcome = .exc .systemExit ∧
    (leProgram place0 [py!"--help"] exampleEnviron inis).outcome = .exc .systemExit ∧
    (leProgram place0 [py!"gnu_teko"] exampleEnviron (inis.drop 1)).outcome = .exc .ioError ∧
    (leProgram place0 [py!"intel"] exampleEnviron inis).outcome = .exc .runtimeError := by
  refine ⟨?_, ?_, ?_, ?_, ?_⟩ <;> decide +kernel

/-- The hypotheses of C73_list and C73_nothing are met. -/
example (fs : Dict Str Str) := C73_list (P := place0) (argv := [py!"-l"]) (environ := exampleEnviron) (files := inis ++ fs)
  (is := [.act ⟨[py!"-l", py!"--list-envs"], py!"list_envs", .flag true⟩ none])
  (.flag (.inl ⟨by decide +kernel, by decide +kernel⟩) (by decide) .done) ⟨by decide, fun o v h => by rw [List.mem_singleton] at h; cases h; decide⟩ rfl
  (inis_files fs (noFiles rfl)) (inis_systems fs) (inis_envs fs) rfl rfl rfl rfl

example : (leProgram place0 [py!"-o"] exampleEnviron inis).outcome = .exc .systemExit ∧
    (leProgram place0 [py!"-o", py!"x", py!"gnu_teko"] exampleEnviron (inis.take 3)).files = inis.take 3 := by
  refine ⟨by decide +kernel, ?_⟩
  have := (C73_nothing (P := place0) (argv := [py!"-o", py!"x", py!"gnu_teko"]) (environ := exampleEnviron) (files := inis.take 3) (doc := topDoc)
    { top_of (fs := place0.disk (inis.take 3)) rfl with names := fun _ _ h => by cases h } rfl).2.2
    items0 py!"/c/systems.ini" py!"/c/envs.ini" py!"/c/specs.ini" reading0 usable0 rfl
    ⟨top_of rfl, (inis_files [] (noFiles rfl)).systems, (inis_files [] (noFiles rfl)).envs, (inis_files [] (noFiles rfl)).specs⟩ ⟨py!"/c/specs.ini", by simp, rfl⟩
  exact this.2.2

/-- A machine that runs load_env.py. -/
def machine2 : Machine := { machine0 with
  run := fun argv env files =>
    if argv.take 4 = [py!"python3", py!"-E", py!"-s", py!"/opt/LoadEnv/load_env.py"] then
      let L := leProgram place0 (argv.drop 4) env files
      (match L.outcome with | .ok _ => 0 | _ => 1, L.files)
    else (1, files) }

theorem machine2_runs : HasLoadEnv machine2 place0 := by
  intro ws env files
  refine ⟨rfl, fun is _ _ _ => ?_⟩
  show (match (leProgram place0 ws env files).outcome with | .ok _ => 0 | _ => 1) = 0 ↔ _
  cases (leProgram place0 ws env files).outcome <;> simp

def shell2 : Shell := { shell0 with files := inis ++ shell0.files }

theorem goes_det {ms : List (M Environ Int)} {env env1 env2 : Environ} {r1 r2 : Out Unit} (h1 : Goes ms env r1 env1) (h2 : Goes ms env r2 env2) :
    env1 = env2 := by
  induction h1 <;> cases h2 <;> simp_all

/-- The hypotheses of C73_source are met, and the shell gets the environment. -/
example : ∃ s', loadEnv machine2 [py!"--ci-mode", py!"gnu_teko"] shell2 = (.ok 0, s') ∧
    s'.environ = siteEnviron ++ [(py!"LOADED_ENV_NAME", py!"machine-1_gnu-9-openmpi")] := by
  have hgo : (App.main site2 false py!"/tmp/t.sh" none (some (location machine2)) (App.new py!"gnu_teko" false shell2.environ shell2.files)).2.environ =
      siteEnviron := by decide +kernel
  have hk : ∀ q l ms env', EnvironmentIs site2.tool py!"gnu_teko" false q → EnvActions site2 q l → Program site2.sys l ms →
      Goes ms shell2.environ (.ok ()) env' → env' = siteEnviron := by
    intro q l ms env' g1 g2 g3 g4
    have hm := C61_main (W := site2) (b := py!"gnu_teko") (f := false) (environ := shell2.environ) (files := shell2.files) site_noHooks
      (fun _ _ => site2_clean) py!"/tmp/t.sh" none (some (location machine2))
    dsimp only at hm
    rcases hm with ⟨q', l', ms', _, env'', k1, k2, k3, k4, _, _, k7, _⟩ | ⟨k1, _⟩
    · cases site2_only g1
      cases site2_only k1
      cases envActions_unique g2 k2
      cases program_det g3 k3
      rw [goes_det g4 k4, ← hgo]
      exact k7.symm
    · exact absurd (by decide +kernel) (k1 ())
  rcases C73_source (W := machine2) (s := shell2) (P := place0) (tools := exampleTools) (is := [.act ⟨[py!"--ci-mode"], py!"do_not_use_this_ci_mode_argument_in_load_env_python_code", .flag false⟩ none, .word py!"gnu_teko"])
    ⟨shell0_fit.1, shell0_fit.2, shell0_fit.3, shell0_fit.4⟩ ⟨machine0_usable.1, machine0_usable.2, machine0_usable.3⟩ shell0_file (by simp) (by unfold NoPattern; decide +kernel) passed_ci asks_ci rfl
    machine2_runs rfl (.flag (.inl ⟨by decide +kernel, by decide +kernel⟩) (by decide) (.word (.inl (by decide)) .done))
    ⟨by decide, fun o v h => by
      rcases List.mem_cons.1 h with h | h
      · cases h; decide
      · rw [List.mem_singleton] at h; cases h⟩ rfl rfl rfl rfl rfl (inis_files _ (noFiles rfl)) (inis_systems _) (inis_envs _) (inis_specs _) rfl
    (by decide +kernel) ⟨fun c hc => (Bash.bare_iff c).1 (by revert c; decide +kernel), by decide, ⟨py!"/tmp/t", rfl⟩⟩ (by decide +kernel)
    (fun h => absurd ((rcOf_iff (by decide)).1 h) (by decide +kernel)) site_noHooks (fun _ _ => site2_clean)
    (fun q l hq hl => by
      cases site2_only hq
      cases envActions_unique hl site_actions
      exact site_portable)
    (fun q hq => by
      cases site2_only hq
      exact fun c hc => (Bash.bare_iff c).1 (by revert c; decide +kernel))
    (fun q l ms env' g1 g2 g3 g4 => by
      rw [hk q l ms env' g1 g2 g3 g4]
      exact ⟨by unfold Hidden; decide +kernel, by unfold Solid; decide +kernel⟩) with ⟨q, l, ms, env', s', h1, h2, h3, h4, e1, e2, _⟩ | ⟨st, s', h1, h2, _⟩
  · refine ⟨s', e1, ?_⟩
    rw [e2.environ, hk q l ms env' h1 h2 h3 h4, site2_only h1]
    decide +kernel
  · exact absurd (congrArg Prod.fst h2) (by
      rw [show (loadEnv machine2 [py!"--ci-mode", py!"gnu_teko"] shell2).1 = .ok 0 by decide +kernel]
      exact fun h => h1 (Out.ok.inj h).symm)

end ProgExample

end CPE.Props
